{
 "claims": [
  {
   "property": "C01",
   "status": "proved",
   "theorems": [
    "Necro.C01_pack_byte",
    "Necro.C01_pack_8s",
    "Necro.C01_pack_le16u",
    "Necro.C01_pack_le16s",
    "Necro.C01_pack_be16u",
    "Necro.C01_pack_be16s",
    "Necro.C01_pack_le32u",
    "Necro.C01_pack_le32s",
    "Necro.C01_pack_be32u",
    "Necro.C01_pack_be32s",
    "Necro.C01_pack_le64u",
    "Necro.C01_pack_le64s"
   ],
   "note": ""
  },
  {
   "property": "C02",
   "status": "proved",
   "theorems": [
    "Necro.C02_neg_fix",
    "Necro.C02_neg_fix_unique"
   ],
   "note": ""
  },
  {
   "property": "C03",
   "status": "proved",
   "theorems": [
    "Necro.C03_in_bit_range",
    "Necro.C03_in_bit_range_decimal_signed",
    "Necro.C03_in_bit_range_decimal_unsigned"
   ],
   "note": ""
  },
  {
   "property": "C04",
   "status": "proved",
   "theorems": [
    "Necro.C04_pack_bits_ok_iff",
    "Necro.C04_pack_bits_error",
    "Necro.C04_pack_bits_bit",
    "Necro.C04_pack_bits_outside",
    "Necro.C04_pack_bits_field",
    "Necro.C04_pack_bits_perm",
    "Necro.C04_pack_bit",
    "Necro.C04_pack_bit_bit"
   ],
   "note": ""
  },
  {
   "property": "C05",
   "status": "proved",
   "theorems": [
    "Necro.C05_length",
    "Necro.C05_before_start",
    "Necro.C05_whole_token",
    "Necro.C05_runs",
    "Necro.C05_subst_functional",
    "Necro.C05_no_key",
    "Necro.C05_empty"
   ],
   "note": ""
  },
  {
   "property": "C06",
   "status": "proved",
   "theorems": [
    "Necro.C06_match",
    "Necro.C06_unbound_match",
    "Necro.C06_match_util"
   ],
   "note": ""
  },
  {
   "property": "C07",
   "status": "proved",
   "theorems": [
    "Necro.C07_shape",
    "Necro.C07_no_empty_token",
    "Necro.C07_error"
   ],
   "note": ""
  },
  {
   "property": "C08",
   "status": "proved",
   "theorems": [
    "Necro.C08_compositional"
   ],
   "note": ""
  },
  {
   "property": "C09",
   "status": "proved",
   "theorems": [
    "Necro.C09_comment",
    "Necro.C09_comment_eof",
    "Necro.C09_trailing_blanks",
    "Necro.C09_trailing_blanks_eof",
    "Necro.C09_separators",
    "Necro.C09_blank_line"
   ],
   "note": ""
  },
  {
   "property": "C10",
   "status": "proved",
   "theorems": [
    "Necro.C10_round_trip",
    "Necro.C10_line_numbers"
   ],
   "note": ""
  },
  {
   "property": "C11",
   "status": "proved",
   "theorems": [
    "Necro.C11_line",
    "Necro.C11_monotone"
   ],
   "note": ""
  },
  {
   "property": "C12",
   "status": "proved",
   "theorems": [
    "Necro.C12_unterminated",
    "Necro.C12_unterminated_line",
    "Necro.C12_silent_loss"
   ],
   "note": "The property is a disagreement with what users expect; C12_silent_loss is the concrete witness."
  },
  {
   "property": "C13",
   "status": "proved",
   "theorems": [
    "Necro.C13_parse_iff",
    "Necro.C13_unsigned",
    "Necro.C13_signed",
    "Necro.C13_signed_decimal",
    "Necro.C13_reject"
   ],
   "note": ""
  },
  {
   "property": "C14",
   "status": "proved",
   "theorems": [
    "Necro.C14_prefix",
    "Necro.C14_decimal",
    "Necro.C14_suffix",
    "Necro.C14_round_trip",
    "Necro.C14_zero_suffix_fails",
    "Necro.C14_hex_suffix_letters"
   ],
   "note": ""
  },
  {
   "property": "C15",
   "status": "proved",
   "theorems": [
    "Necro.C15_unsigned",
    "Necro.C15_signed",
    "Necro.C15_negative_formula"
   ],
   "note": ""
  },
  {
   "property": "C16",
   "status": "proved",
   "theorems": [
    "Necro.C16_number",
    "Necro.C16_label",
    "Necro.C16_label_relative",
    "Necro.C16_not_label",
    "Necro.C16_operand_missing",
    "Necro.C16_operand_number",
    "Necro.C16_operand_decimal",
    "Necro.C16_operand_label",
    "Necro.C16_operand_unknown",
    "Necro.C16_and_bits",
    "Necro.C16_or_bits"
   ],
   "note": ""
  },
  {
   "property": "C17",
   "status": "proved",
   "theorems": [
    "Necro.C17_high",
    "Necro.C17_low",
    "Necro.C17_middle"
   ],
   "note": ""
  },
  {
   "property": "C18",
   "status": "proved",
   "theorems": [
    "Necro.C18_depth",
    "Necro.C18_depth_label",
    "Necro.C18_no_recursion",
    "Necro.C18_no_recursion_label"
   ],
   "note": ""
  },
  {
   "property": "C19",
   "status": "proved",
   "theorems": [
    "Necro.C19_assemble",
    "Necro.C19_statement"
   ],
   "note": ""
  },
  {
   "property": "C20",
   "status": "proved",
   "theorems": [
    "Necro.C20_instruction",
    "Necro.C20_directive",
    "Necro.C20_pc_nonneg"
   ],
   "note": ""
  },
  {
   "property": "C21",
   "status": "proved",
   "theorems": [
    "Necro.C21_define_iff",
    "Necro.C21_address",
    "Necro.C21_reject",
    "Necro.C21_append_only",
    "Necro.C21_write_once",
    "Necro.C21_well_formed"
   ],
   "note": ""
  },
  {
   "property": "C22",
   "status": "proved",
   "theorems": [
    "Necro.C22_emit",
    "Necro.C22_accept_iff"
   ],
   "note": ""
  },
  {
   "property": "C23",
   "status": "proved",
   "theorems": [
    "Necro.C23_fill",
    "Necro.C23_ram",
    "Necro.C23_align",
    "Necro.C23_align_zero",
    "Necro.C23_goto",
    "Necro.C23_goto_reaches",
    "Necro.C23_upto",
    "Necro.C23_upto_reaches"
   ],
   "note": ""
  },
  {
   "property": "C24",
   "status": "proved",
   "theorems": [
    "Necro.C24_repeat",
    "Necro.C24_nested",
    "Necro.C24_unmatched",
    "Necro.C24_count"
   ],
   "note": ""
  },
  {
   "property": "C25",
   "status": "proved",
   "theorems": [
    "Necro.C25_region_order",
    "Necro.C25_accept",
    "Necro.C25_refuse",
    "Necro.C25_refuse_iff",
    "Necro.C25_org"
   ],
   "note": ""
  },
  {
   "property": "C26",
   "status": "proved",
   "theorems": [
    "Necro.C26_offsets",
    "Necro.C26_label",
    "Necro.C26_final_fill",
    "Necro.C26_file_size"
   ],
   "note": ""
  },
  {
   "property": "C27",
   "status": "proved",
   "theorems": [
    "Necro.C27_no_empty_name",
    "Necro.C27_reach",
    "Necro.C27_partition",
    "Necro.C27_unique",
    "Necro.C27_order",
    "Necro.C27_open",
    "Necro.C27_open_quiet"
   ],
   "note": ""
  },
  {
   "property": "C28",
   "status": "proved",
   "theorems": [
    "Necro.C28_append_only",
    "Necro.C28_nodup",
    "Necro.C28_export",
    "Necro.C28_export_quoted"
   ],
   "note": ""
  },
  {
   "property": "C29",
   "status": "proved",
   "theorems": [
    "Necro.C29_define",
    "Necro.C29_directive",
    "Necro.C29_instruction",
    "Necro.C29_only_substituted",
    "Necro.C29_label",
    "Necro.C29_no_redefinition"
   ],
   "note": ""
  },
  {
   "property": "C30",
   "status": "proved",
   "theorems": [
    "Necro.C30_instruction",
    "Necro.C30_label",
    "Necro.C30_nested",
    "Necro.C30_unmatched",
    "Necro.C30_definition"
   ],
   "note": ""
  },
  {
   "property": "C31",
   "status": "proved",
   "theorems": [
    "Necro.C31_inline",
    "Necro.C31_missing",
    "Necro.C31_extra"
   ],
   "note": ""
  },
  {
   "property": "C32",
   "status": "proved",
   "theorems": [
    "Necro.C32_success",
    "Necro.C32_shape",
    "Necro.C32_failure"
   ],
   "note": ""
  },
  {
   "property": "C33",
   "status": "proved",
   "theorems": [
    "Necro.C33_failure",
    "Necro.C33_raw_errors"
   ],
   "note": ""
  },
  {
   "property": "C34",
   "status": "proved",
   "theorems": [
    "Necro.C34_concat",
    "Necro.C34_first_fails",
    "Necro.C34_tool"
   ],
   "note": ""
  },
  {
   "property": "C35",
   "status": "proved",
   "theorems": [
    "Necro.C35_include",
    "Necro.C35_inline",
    "Necro.C35_tool"
   ],
   "note": ""
  },
  {
   "property": "C36",
   "status": "proved",
   "theorems": [
    "Necro.C36_windows",
    "Necro.C36_touched"
   ],
   "note": ""
  },
  {
   "property": "C37",
   "status": "proved",
   "theorems": [
    "Necro.C37_bits",
    "Necro.C37_absolute",
    "Necro.C37_relative",
    "Necro.C37_field"
   ],
   "note": ""
  },
  {
   "property": "C38",
   "status": "proved",
   "theorems": [
    "Necro.C38_success",
    "Necro.C38_error",
    "Necro.C38_exact",
    "Necro.C38_unknown"
   ],
   "note": ""
  },
  {
   "property": "C39",
   "status": "proved",
   "theorems": [
    "Necro.C39_order",
    "Necro.C39_order_fails",
    "Necro.C39_idempotent",
    "Necro.C39_order_ascii",
    "Necro.C39_idempotent_ascii",
    "Necro.C39_overlapping_ascii"
   ],
   "note": ""
  },
  {
   "property": "C40",
   "status": "proved",
   "theorems": [
    "Necro.C40_reaches",
    "Necro.C40_rejected"
   ],
   "note": ""
  },
  {
   "property": "C41",
   "status": "proved",
   "theorems": [
    "Necro.C41_link",
    "Necro.C41_record",
    "Necro.C41_same",
    "Necro.C41_number_first",
    "Necro.C41_instruction",
    "Necro.C41_directive"
   ],
   "note": ""
  },
  {
   "property": "C42",
   "status": "proved",
   "theorems": [
    "Necro.C42_text",
    "Necro.C42_label",
    "Necro.C42_reserve_byte",
    "Necro.C42_reserve_word",
    "Necro.C42_number",
    "Necro.C42_number_word",
    "Necro.C42_clobbers"
   ],
   "note": ""
  },
  {
   "property": "C43",
   "status": "proved",
   "theorems": [
    "Necro.C43_header",
    "Necro.C43_null",
    "Necro.C43_section",
    "Necro.C43_contents",
    "Necro.C43_tables",
    "Necro.C43_symbols",
    "Necro.C43_outside",
    "Necro.C43_succeeds",
    "Necro.C43_program",
    "Necro.C43_single_use",
    "Necro.C43_value_from_origin",
    "Necro.C43_no_null_symbol"
   ],
   "note": ""
  },
  {
   "property": "C44",
   "status": "proved",
   "theorems": [
    "Necro.C44_succeeds",
    "Necro.C44_boot_check",
    "Necro.C44_only_checksums"
   ],
   "note": ""
  },
  {
   "property": "C45",
   "status": "proved",
   "theorems": [
    "Necro.C45_exact",
    "Necro.C45_value",
    "Necro.C45_relink"
   ],
   "note": ""
  },
  {
   "property": "C46",
   "status": "proved",
   "theorems": [
    "Necro.C46_gameboy",
    "Necro.C46_sms",
    "Necro.C46_nes"
   ],
   "note": ""
  },
  {
   "property": "C47",
   "status": "proved",
   "theorems": [
    "Necro.C47_gba_succeeds",
    "Necro.C47_gba_check",
    "Necro.C47_gba_idempotent",
    "Necro.C47_genesis_succeeds",
    "Necro.C47_genesis_check",
    "Necro.C47_genesis_idempotent"
   ],
   "note": ""
  },
  {
   "property": "C48",
   "status": "proved",
   "theorems": [
    "Necro.C48_layout"
   ],
   "note": ""
  },
  {
   "property": "C49",
   "status": "proved",
   "theorems": [
    "Necro.C49_decodes",
    "Necro.C49_unique",
    "Necro.C49_one_opcode",
    "Necro.C49_complete",
    "Necro.C49_extra_tokens",
    "Necro.C54_line"
   ],
   "note": ""
  },
  {
   "property": "C50",
   "status": "proved",
   "theorems": [
    "Necro.C50_zero_page",
    "Necro.C50_absolute",
    "Necro.C50_rejected",
    "Necro.C50_too_big",
    "Necro.C50_label_zero_page",
    "Necro.C50_label_absolute",
    "Necro.C50_immediate",
    "Necro.C50_implied",
    "Necro.C50_accumulator"
   ],
   "note": ""
  },
  {
   "property": "C51",
   "status": "proved",
   "theorems": [
    "Necro.C51_emits",
    "Necro.C51_number",
    "Necro.C51_reaches",
    "Necro.C51_rejected",
    "Necro.C51_accepted",
    "Necro.C51_hex_displacement"
   ],
   "note": ""
  },
  {
   "property": "C52",
   "status": "proved",
   "theorems": [
    "Necro.C52_cartridge",
    "Necro.C52_field",
    "Necro.C52_keeps_header",
    "Necro.C52_needs_header",
    "Necro.C52_misplaced"
   ],
   "note": ""
  },
  {
   "property": "C53",
   "status": "proved",
   "theorems": [
    "Necro.C53_cartridge",
    "Necro.C53_field",
    "Necro.C53_prg_is_chr"
   ],
   "note": ""
  },
  {
   "property": "C54",
   "status": "proved",
   "theorems": [
    "Necro.C54_kept",
    "Necro.C54_statements",
    "Necro.C54_one_each",
    "Necro.C54_instruction",
    "Necro.C54_line"
   ],
   "note": ""
  },
  {
   "property": "C55",
   "status": "proved",
   "theorems": [
    "Necro.C55_decodes",
    "Necro.C55_complete",
    "Necro.C55_unusable",
    "Necro.C55_sltiu",
    "Necro.C55_sltu",
    "Necro.C55_jalr",
    "Necro.C55_lui",
    "Necro.C54_line"
   ],
   "note": ""
  },
  {
   "property": "C56",
   "status": "proved",
   "theorems": [
    "Necro.C56_reaches",
    "Necro.C56_aligned",
    "Necro.C56_rejected",
    "Necro.C56_accepted",
    "Necro.C56_unaligned"
   ],
   "note": ""
  },
  {
   "property": "C57",
   "status": "proved",
   "theorems": [
    "Necro.C57_jump",
    "Necro.C57_reaches",
    "Necro.C57_upper",
    "Necro.C57_immediate",
    "Necro.C57_rejected",
    "Necro.C57_other_region"
   ],
   "note": ""
  },
  {
   "property": "C58",
   "status": "proved",
   "theorems": [
    "Necro.C58_decodes",
    "Necro.C58_complete",
    "Necro.C58_bra",
    "Necro.C58_half",
    "Necro.C58_store",
    "Necro.C58_sp",
    "Necro.C54_line"
   ],
   "note": ""
  },
  {
   "property": "C59",
   "status": "proved",
   "theorems": [
    "Necro.C59_linked"
   ],
   "note": ""
  },
  {
   "property": "C60",
   "status": "proved",
   "theorems": [
    "Necro.C60_rejected",
    "Necro.C60_accepted"
   ],
   "note": ""
  },
  {
   "property": "C61",
   "status": "proved",
   "theorems": [
    "Necro.C61_decodes",
    "Necro.C61_complete",
    "Necro.C61_str",
    "Necro.C61_ldrh",
    "Necro.C61_ldrh_imm",
    "Necro.C61_ldrb_imm",
    "Necro.C61_add_pc",
    "Necro.C61_add_sp",
    "Necro.C61_push_lr",
    "Necro.C61_shift",
    "Necro.C61_offset",
    "Necro.C61_unaligned",
    "Necro.C61_odd_branch",
    "Necro.C61_add_sp_never",
    "Necro.C61_strb_never",
    "Necro.C61_push_upper",
    "Necro.C61_decimal_offset",
    "Necro.C54_line"
   ],
   "note": ""
  },
  {
   "property": "C62",
   "status": "proved",
   "theorems": [
    "Necro.C62_reaches",
    "Necro.C62_rejected",
    "Necro.C62_accepted"
   ],
   "note": ""
  },
  {
   "property": "C63",
   "status": "proved",
   "theorems": [
    "Necro.C63_decodes",
    "Necro.C63_complete",
    "Necro.C63_reaches",
    "Necro.C63_rejected",
    "Necro.C63_accepted",
    "Necro.C63_zero"
   ],
   "note": ""
  },
  {
   "property": "C64",
   "status": "proved",
   "theorems": [
    "Necro.C64_decodes",
    "Necro.C64_reaches",
    "Necro.C64_behind"
   ],
   "note": ""
  },
  {
   "property": "C65",
   "status": "proved",
   "theorems": [
    "Necro.C65_decodes",
    "Necro.C65_complete",
    "Necro.C65_odd",
    "Necro.C65_refused",
    "Necro.C54_line"
   ],
   "note": ""
  },
  {
   "property": "C66",
   "status": "proved",
   "theorems": [
    "Necro.C66_linked"
   ],
   "note": ""
  },
  {
   "property": "C67",
   "status": "proved",
   "theorems": [
    "Necro.C67_reaches",
    "Necro.C67_rejected",
    "Necro.C67_accepted"
   ],
   "note": ""
  },
  {
   "property": "C68",
   "status": "proved",
   "theorems": [
    "Necro.C68_decodes",
    "Necro.C68_accepts",
    "Necro.C68_odd",
    "Necro.C68_refused",
    "Necro.C54_line"
   ],
   "note": ""
  },
  {
   "property": "C69",
   "status": "proved",
   "theorems": [
    "Necro.C69_linked",
    "Necro.C69_rejected",
    "Necro.C69_accepted",
    "Necro.C69_displacement",
    "Necro.C69_pointer"
   ],
   "note": ""
  },
  {
   "property": "C70",
   "status": "proved",
   "theorems": [
    "Necro.C70_decodes",
    "Necro.C70_store",
    "Necro.C54_line"
   ],
   "note": ""
  },
  {
   "property": "C71",
   "status": "proved",
   "theorems": [
    "Necro.C71_accepts",
    "Necro.C71_lost"
   ],
   "note": ""
  },
  {
   "property": "C72",
   "status": "proved",
   "theorems": [
    "Necro.C72_linked",
    "Necro.C72_rejected",
    "Necro.C72_accepted",
    "Necro.C72_index"
   ],
   "note": ""
  },
  {
   "property": "C73",
   "status": "proved",
   "theorems": [
    "Necro.C73_decodes",
    "Necro.C73_unique",
    "Necro.C73_bctr",
    "Necro.C73_mftb",
    "Necro.C54_line"
   ],
   "note": ""
  },
  {
   "property": "C74",
   "status": "proved",
   "theorems": [
    "Necro.C74_accepts",
    "Necro.C74_r0",
    "Necro.C74_never"
   ],
   "note": ""
  },
  {
   "property": "C75",
   "status": "proved",
   "theorems": [
    "Necro.C75_linked",
    "Necro.C75_rejected",
    "Necro.C75_accepted",
    "Necro.C75_distance",
    "Necro.C75_branch",
    "Necro.C75_several",
    "Necro.C75_short"
   ],
   "note": ""
  },
  {
   "property": "C76",
   "status": "proved",
   "theorems": [
    "Necro.C76_gameboy_stays",
    "Necro.C76_nes_stays",
    "Necro.C76_sms_stays",
    "Necro.C76_gameboy_image",
    "Necro.C76_nes_image",
    "Necro.C76_sms_image",
    "Necro.C76_gameboy",
    "Necro.C76_gameboy_plain",
    "Necro.C76_gameboy_rejected",
    "Necro.C76_nes",
    "Necro.C76_sms",
    "Necro.C76_gba",
    "Necro.C76_genesis",
    "Necro.C76_psx"
   ],
   "note": ""
  },
  {
   "property": "C77",
   "status": "proved",
   "theorems": [
    "Necro.C77_csv",
    "Necro.C77_csv_accept_iff",
    "Necro.C77_incbin",
    "Necro.C77_json",
    "Necro.C77_json_accept_iff"
   ],
   "note": ""
  },
  {
   "property": "C78",
   "status": "proved",
   "theorems": [
    "Necro.C78_code",
    "Necro.C78_plain",
    "Necro.C78_wide",
    "Necro.C78_repeat",
    "Necro.C78_odd_rows",
    "Necro.C78_odd_modes",
    "Necro.C54_line"
   ],
   "note": ""
  },
  {
   "property": "C79",
   "status": "proved",
   "theorems": [
    "Necro.C79_modes",
    "Necro.C79_first",
    "Necro.C79_bits"
   ],
   "note": ""
  },
  {
   "property": "C80",
   "status": "proved",
   "theorems": [
    "Necro.C80_code",
    "Necro.C80_reaches",
    "Necro.C80_backward",
    "Necro.C80_rejected",
    "Necro.C80_accepted",
    "Necro.C80_elsewhere"
   ],
   "note": ""
  },
  {
   "property": "C81",
   "status": "proved",
   "theorems": [
    "Necro.C81_code",
    "Necro.C81_address",
    "Necro.C81_rejected",
    "Necro.C81_accepted"
   ],
   "note": ""
  },
  {
   "property": "C82",
   "status": "proved",
   "theorems": [
    "Necro.C82_same",
    "Necro.C82_success",
    "Necro.C82_elsewhere",
    "Necro.C82_blank",
    "Necro.C82_object"
   ],
   "note": ""
  },
  {
   "property": "C83",
   "status": "proved",
   "theorems": [
    "Necro.C83_inside",
    "Necro.C83_program",
    "Necro.C83_fault",
    "Necro.C83_line",
    "Necro.C83_object"
   ],
   "note": ""
  },
  {
   "property": "C84",
   "status": "proved",
   "theorems": [
    "Necro.C84_symbols",
    "Necro.C84_never_fails"
   ],
   "note": ""
  },
  {
   "property": "C85",
   "status": "proved",
   "theorems": [
    "Necro.C85_line",
    "Necro.C85_mc68000",
    "Necro.C85_z80",
    "Necro.C85_sms",
    "Necro.C85_ppc",
    "Necro.C85_i8086",
    "Necro.C85_lr35902",
    "Necro.C85_gameboy",
    "Necro.C85_mos6502",
    "Necro.C85_nes",
    "Necro.C85_mos6502_plain",
    "Necro.C85_mips_plain",
    "Necro.C85_mips_branch",
    "Necro.C85_mips_jump",
    "Necro.C85_thumb_plain",
    "Necro.C85_thumb_branch",
    "Necro.C85_thumb_call",
    "Necro.C85_x86_jump",
    "Necro.C85_x86_address",
    "Necro.C85_x86_plain"
   ],
   "note": ""
  },
  {
   "property": "C86",
   "status": "proved",
   "theorems": [
    "Necro.C86_only_outputs",
    "Necro.C86_failure",
    "Necro.C86_processor",
    "Necro.C86_object",
    "Necro.C86_gameboy",
    "Necro.C86_gba",
    "Necro.C86_genesis",
    "Necro.C86_psx",
    "Necro.C86_nes",
    "Necro.C86_forgotten",
    "Necro.C86_kept",
    "Necro.C86_nes_late"
   ],
   "note": ""
  },
  {
   "property": "C87",
   "status": "proved",
   "theorems": [
    "Necro.C87_build",
    "Necro.C87_object",
    "Necro.C87_more_files",
    "Necro.C87_rebuild",
    "Necro.C87_own_output"
   ],
   "note": ""
  },
  {
   "property": "C88",
   "status": "proved",
   "theorems": [
    "Necro.C88_file",
    "Necro.C88_genesis",
    "Necro.C88_sms",
    "Necro.C88_gameboy",
    "Necro.C88_gba",
    "Necro.C88_psx"
   ],
   "note": ""
  },
  {
   "property": "C89",
   "status": "proved",
   "theorems": [
    "Necro.C89_line",
    "Necro.C89_i8086",
    "Necro.C89_ppc",
    "Necro.C89_x86_jump",
    "Necro.C89_x86_address",
    "Necro.C89_x86_plain"
   ],
   "note": ""
  },
  {
   "property": "C90",
   "status": "proved",
   "theorems": [
    "Necro.C90_operands",
    "Necro.C90_unwritable",
    "Necro.C90_unwritable_sms",
    "Necro.C90_odd"
   ],
   "note": ""
  },
  {
   "property": "C91",
   "status": "proved",
   "theorems": [
    "Necro.C91_source",
    "Necro.C91_agree",
    "Necro.C91_run",
    "Necro.C91_include_cycle",
    "Necro.C91_macro_cycle"
   ],
   "note": ""
  },
  {
   "property": "C92",
   "status": "proved",
   "theorems": [
    "Necro.C92_statement",
    "Necro.C92_source",
    "Necro.C92_program",
    "Necro.C92_macros",
    "Necro.C92_run",
    "Necro.C92_file_run"
   ],
   "note": ""
  },
  {
   "property": "C93",
   "status": "proved",
   "theorems": [
    "Necro.C93_same",
    "Necro.C93_same_sources",
    "Necro.C93_place",
    "Necro.C93_place_sources",
    "Necro.C93_text",
    "Necro.C93_instruction",
    "Necro.C93_directive",
    "Necro.C93_label"
   ],
   "note": ""
  },
  {
   "property": "C94",
   "status": "proved",
   "theorems": [
    "Necro.C94_definition",
    "Necro.C94_library",
    "Necro.C94_object",
    "Necro.C94_run",
    "Necro.C94_include",
    "Necro.C94_include_run"
   ],
   "note": ""
  },
  {
   "property": "C95",
   "status": "proved",
   "theorems": [
    "Necro.C95_label",
    "Necro.C95_run",
    "Necro.C95_file_run"
   ],
   "note": ""
  },
  {
   "property": "C96",
   "status": "proved",
   "theorems": [
    "Necro.C96_build",
    "Necro.C96_labels"
   ],
   "note": ""
  },
  {
   "property": "C97",
   "status": "proved",
   "theorems": [
    "Necro.C97_define"
   ],
   "note": ""
  },
  {
   "property": "C98",
   "status": "proved",
   "theorems": [
    "Necro.C98_run",
    "Necro.C98_file_run",
    "Necro.C98_expand"
   ],
   "note": ""
  },
  {
   "property": "C99",
   "status": "proved",
   "theorems": [
    "Necro.C99_run",
    "Necro.C99_file_run",
    "Necro.C99_inline",
    "Necro.C99_include",
    "Necro.C99_include_run",
    "Necro.C99_include_file_run"
   ],
   "note": ""
  },
  {
   "property": "C100",
   "status": "proved",
   "theorems": [
    "Necro.C100_data",
    "Necro.C100_instruction",
    "Necro.C100_unroll",
    "Necro.C100_run",
    "Necro.C100_file_run",
    "Necro.C100_labels"
   ],
   "note": ""
  },
  {
   "property": "C101",
   "status": "proved",
   "theorems": [
    "Necro.C101_respelled",
    "Necro.C101_run",
    "Necro.C101_file_run"
   ],
   "note": ""
  },
  {
   "property": "C102",
   "status": "proved",
   "theorems": [
    "Necro.C102_merged",
    "Necro.C102_run",
    "Necro.C102_file_run"
   ],
   "note": ""
  },
  {
   "property": "C103",
   "status": "proved",
   "theorems": [
    "Necro.C103_restated",
    "Necro.C103_run",
    "Necro.C103_file_run"
   ],
   "note": ""
  },
  {
   "property": "C104",
   "status": "proved",
   "theorems": [
    "Necro.C104_swapped",
    "Necro.C104_macros",
    "Necro.C104_run",
    "Necro.C104_file_run"
   ],
   "note": ""
  },
  {
   "property": "C105",
   "status": "proved",
   "theorems": [
    "Necro.C105_lines",
    "Necro.C105_colons",
    "Necro.C105_sources",
    "Necro.C105_build",
    "Necro.C105_extended",
    "Necro.C105_run",
    "Necro.C105_file_run"
   ],
   "note": ""
  }
 ]
}