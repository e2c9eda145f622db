{
 "claims": [
  {
   "property": "C01",
   "status": "proved",
   "theorems": [
    "Ase.C01_scalars",
    "Ase.C01_derived"
   ],
   "note": ""
  },
  {
   "property": "C02",
   "status": "proved",
   "theorems": [
    "Ase.C02_string",
    "Ase.C02_bad_text"
   ],
   "note": ""
  },
  {
   "property": "C03",
   "status": "proved",
   "theorems": [
    "Ase.C03_header"
   ],
   "note": ""
  },
  {
   "property": "C04",
   "status": "partial",
   "theorems": [
    "Ase.C04_exact_partial",
    "Ase.C04_panics_partial",
    "Ase.C04_index_panics",
    "Ase.C04_overflow_panics",
    "Ase.C04_stack_overflow"
   ],
   "note": "False of the code: three panics with concrete inputs; the partial theorem shows these are the only ones and when they can occur."
  },
  {
   "property": "C05",
   "status": "proved",
   "theorems": [
    "Ase.C05_chunk_framing"
   ],
   "note": ""
  },
  {
   "property": "C06",
   "status": "proved",
   "theorems": [
    "Ase.C06_unknown_chunks"
   ],
   "note": ""
  },
  {
   "property": "C07",
   "status": "proved",
   "theorems": [
    "Ase.C07_frame_framing"
   ],
   "note": ""
  },
  {
   "property": "C08",
   "status": "proved",
   "theorems": [
    "Ase.C08_file_framing"
   ],
   "note": ""
  },
  {
   "property": "C09",
   "status": "proved",
   "theorems": [
    "Ase.C09_informational_fields"
   ],
   "note": ""
  },
  {
   "property": "C10",
   "status": "proved",
   "theorems": [
    "Ase.C10_truncation"
   ],
   "note": ""
  },
  {
   "property": "C11",
   "status": "proved",
   "theorems": [
    "Ase.C11_layer"
   ],
   "note": ""
  },
  {
   "property": "C12",
   "status": "partial",
   "theorems": [
    "Ase.C12_cel_partial",
    "Ase.C12_tilemap_flips_swapped"
   ],
   "note": "False of the code for compressed tilemaps (flip masks exchanged); exact for every other cel."
  },
  {
   "property": "C13",
   "status": "proved",
   "theorems": [
    "Ase.C13_tags",
    "Ase.C13_file_tags",
    "Ase.C13_inverted_tag_fails"
   ],
   "note": ""
  },
  {
   "property": "C14",
   "status": "partial",
   "theorems": [
    "Ase.C14_palette_partial",
    "Ase.C14_oldPalette",
    "Ase.C14_palette_size_misread",
    "Ase.C14_documented_partial"
   ],
   "note": "False of the code when the palette size field differs from the number of stored entries; C14_documented_partial says what is read then."
  },
  {
   "property": "C15",
   "status": "proved",
   "theorems": [
    "Ase.C15_slice"
   ],
   "note": ""
  },
  {
   "property": "C16",
   "status": "partial",
   "theorems": [
    "Ase.C16_values_partial",
    "Ase.C16_layouts_agree",
    "Ase.C16_chunk_partial",
    "Ase.C16_nested_map_misread"
   ],
   "note": "False of the code for property maps nested in values (an extra key is read); exact for everything else."
  },
  {
   "property": "C17",
   "status": "proved",
   "theorems": [
    "Ase.C17_malformed_maps"
   ],
   "note": ""
  },
  {
   "property": "C18",
   "status": "proved",
   "theorems": [
    "Ase.C18_auxiliary"
   ],
   "note": ""
  },
  {
   "property": "C19",
   "status": "partial",
   "theorems": [
    "Ase.C19_codes_partial",
    "Ase.C19_parsed_partial",
    "Ase.C19_injective",
    "Ase.C19_unknown_code_lost"
   ],
   "note": "False of the code at one code of five enumerations."
  },
  {
   "property": "C20",
   "status": "partial",
   "theorems": [
    "Ase.C20_flags_partial",
    "Ase.C20_layer_flag_constants_wrong",
    "Ase.C20_other_flags_partial",
    "Ase.C20_kept",
    "Ase.C20_parsed"
   ],
   "note": "False of the code for three layer flag constants; C20_other_flags_partial says which bits they test instead."
  },
  {
   "property": "C21",
   "status": "proved",
   "theorems": [
    "Ase.C21_palette"
   ],
   "note": ""
  },
  {
   "property": "C22",
   "status": "proved",
   "theorems": [
    "Ase.C22_palette_iff_indexed",
    "Ase.C22_never_missing_palette"
   ],
   "note": ""
  },
  {
   "property": "C23",
   "status": "partial",
   "theorems": [
    "Ase.C23_cel_slots_partial",
    "Ase.C23_index_equal_to_layer_count_panics",
    "Ase.C23_exact_partial"
   ],
   "note": "False of the code when a layer index equals the number of layers (panic instead of the error); C23_exact_partial says exactly when each outcome occurs."
  },
  {
   "property": "C24",
   "status": "proved",
   "theorems": [
    "Ase.C24_cel_order"
   ],
   "note": ""
  },
  {
   "property": "C25",
   "status": "proved",
   "theorems": [
    "Ase.C25_attachment",
    "Ase.C25_orphans",
    "Ase.C26_collected"
   ],
   "note": ""
  },
  {
   "property": "C26",
   "status": "proved",
   "theorems": [
    "Ase.C26_collected",
    "Ase.C26_nothing_lost",
    "Ase.C26_raw_cels"
   ],
   "note": ""
  },
  {
   "property": "C27",
   "status": "proved",
   "theorems": [
    "Ase.C27_zero_copy",
    "Ase.C27_raw",
    "Ase.C27_file",
    "Ase.C27_loaded"
   ],
   "note": "The error value inside a user data chunk with malformed properties is not looked into."
  },
  {
   "property": "C28",
   "status": "proved",
   "theorems": [
    "Ase.C28_bounded",
    "Ase.C28_everything"
   ],
   "note": ""
  },
  {
   "property": "C29",
   "status": "proved",
   "theorems": [
    "Ase.C29_layers"
   ],
   "note": ""
  },
  {
   "property": "C30",
   "status": "proved",
   "theorems": [
    "Ase.C30_frames_and_tags"
   ],
   "note": ""
  },
  {
   "property": "C31",
   "status": "proved",
   "theorems": [
    "Ase.C31_references"
   ],
   "note": ""
  },
  {
   "property": "C32",
   "status": "proved",
   "theorems": [
    "Ase.C32_linked_cels"
   ],
   "note": ""
  },
  {
   "property": "C33",
   "status": "proved",
   "theorems": [
    "Ase.C33_load_succeeds",
    "Ase.C33_chunks",
    "Ase.C33_cause"
   ],
   "note": ""
  },
  {
   "property": "C34",
   "status": "partial",
   "theorems": [
    "Ase.C34_own_layer_partial",
    "Ase.C34_wrong_layer",
    "Ase.C34_exact_partial"
   ],
   "note": "False of the code if a tilemap or unknown layer comes first: cels are then matched with the wrong layer (C34_wrong_layer). C34_exact_partial says which layer each cel is drawn with and exactly when it is its own."
  },
  {
   "property": "C35",
   "status": "proved",
   "theorems": [
    "Ase.C35_selection"
   ],
   "note": ""
  },
  {
   "property": "C36",
   "status": "proved",
   "theorems": [
    "Ase.C36_buffer"
   ],
   "note": ""
  },
  {
   "property": "C37",
   "status": "proved",
   "theorems": [
    "Ase.C37_pixels"
   ],
   "note": ""
  },
  {
   "property": "C38",
   "status": "proved",
   "theorems": [
    "Ase.C38_anywhere"
   ],
   "note": ""
  },
  {
   "property": "C39",
   "status": "proved",
   "theorems": [
    "Ase.C39_not_drawn"
   ],
   "note": ""
  },
  {
   "property": "C40",
   "status": "proved",
   "theorems": [
    "Ase.C40_masks"
   ],
   "note": ""
  },
  {
   "property": "C41",
   "status": "partial",
   "theorems": [
    "Ase.C41_failures_partial",
    "Ase.C41_render_panics",
    "Ase.C41_cause_partial",
    "Ase.C41_success_partial"
   ],
   "note": "False of the code; the partial theorems say exactly when rendering succeeds, that it never returns an error otherwise but panics, and which panic has which cause."
  },
  {
   "property": "C42",
   "status": "proved",
   "theorems": [
    "Ase.C42_decoding",
    "Ase.C42_pixel_size"
   ],
   "note": ""
  },
  {
   "property": "C43",
   "status": "partial",
   "theorems": [
    "Ase.C43_contract_partial",
    "Ase.C43_raw_rgba_panics"
   ],
   "note": "Proved for a buffer of any size, except raw RGBA images whose data does not have the declared size: there the program panics, which C43_raw_rgba_panics shows with a file."
  },
  {
   "property": "C44",
   "status": "partial",
   "theorems": [
    "Ase.C44_independent_partial",
    "Ase.C44_short_stream_keeps_old_bytes",
    "Ase.C44_all_pixels_partial"
   ],
   "note": "Holds unless a compressed RGBA stream ends early; then old bytes stay in the buffer, shown by C44_short_stream_keeps_old_bytes. C44_all_pixels_partial gives every pixel in all cases."
  },
  {
   "property": "C45",
   "status": "partial",
   "theorems": [
    "Ase.C45_arithmetic_partial",
    "Ase.C45_interpolation_not_nearest",
    "Ase.C45_exactly_when_partial"
   ],
   "note": "Multiplication and division are exactly rounded; interpolation is given exactly, and C45_exactly_when_partial says exactly when it is not the nearest integer."
  },
  {
   "property": "C46",
   "status": "proved",
   "theorems": [
    "Ase.C46_normal"
   ],
   "note": ""
  },
  {
   "property": "C47",
   "status": "proved",
   "theorems": [
    "Ase.C47_total"
   ],
   "note": "Includes soft light, through an error analysis of the floating point computation."
  },
  {
   "property": "C48",
   "status": "proved",
   "theorems": [
    "Ase.C48_transparent_backdrop",
    "Ase.C48_transparent_source"
   ],
   "note": ""
  },
  {
   "property": "C49",
   "status": "proved",
   "theorems": [
    "Ase.C49_opaque"
   ],
   "note": ""
  },
  {
   "property": "C50",
   "status": "partial",
   "theorems": [
    "Ase.C50_release_partial",
    "Ase.C50_debug_panics",
    "Ase.C50_release_no_effect",
    "Ase.C50_transparent_source_panics",
    "Ase.C50_keeps_opaque_partial",
    "Ase.C50_exactly_partial"
   ],
   "note": "False of the code in debug builds: every visible backdrop with source alpha of at least 2 panics, and C50_exactly_partial says for which other colours. In release builds the modes are total and keep opaque images opaque, but hardly change the backdrop."
  },
  {
   "property": "C51",
   "status": "partial",
   "theorems": [
    "Ase.C51_soft_light_partial",
    "Ase.C51_blue_ignores_source"
   ],
   "note": "Red and green are exactly rounded soft light; the blue channel uses the backdrop twice, so the claim is false of the code."
  },
  {
   "property": "C52",
   "status": "proved",
   "theorems": [
    "Ase.C52_combined",
    "Ase.C52_same_hash"
   ],
   "note": ""
  },
  {
   "property": "C53",
   "status": "proved",
   "theorems": [
    "Ase.C53_incremental"
   ],
   "note": ""
  },
  {
   "property": "C54",
   "status": "partial",
   "theorems": [
    "Ase.C54_round_trip_partial",
    "Ase.C54_as_read_partial",
    "Ase.C54_encode_injective_partial",
    "Ase.C54_round_trip_fails"
   ],
   "note": "Holds of every file the format can express, except where the crate deviates from the format: tilemap flip masks (exactly exchanged, C54_as_read_partial), properties maps nested in values (C16), the codes replaced by zero (C19) and palettes not stored completely (C14). C54_round_trip_fails is a concrete file for which the claim is false."
  },
  {
   "property": "C55",
   "status": "partial",
   "theorems": [
    "Ase.C55_needed_stack_partial",
    "Ase.C55_recursion_partial",
    "Ase.C55_unbounded_recursion"
   ],
   "note": "False of the code: recursion depth is bounded only by the input length."
  },
  {
   "property": "C56",
   "status": "proved",
   "theorems": [
    "Ase.C56_composite"
   ],
   "note": ""
  },
  {
   "property": "C57",
   "status": "proved",
   "theorems": [
    "Ase.C57_parse",
    "Ase.C57_load",
    "Ase.C57_parse_agrees",
    "Ase.C57_load_agrees",
    "Ase.C57_render",
    "Ase.C57_combined",
    "Ase.C57_render_agrees",
    "Ase.C57_builds_differ"
   ],
   "note": "C57_builds_differ shows with inputs that each exception happens."
  },
  {
   "property": "C58",
   "status": "partial",
   "theorems": [
    "Ase.C58_picture_partial",
    "Ase.C58_cel_opacity_ignored",
    "Ase.C58_z_index_ignored",
    "Ase.C58_hidden_group_drawn",
    "Ase.C58_invalid_opacity_used",
    "Ase.C58_reference_layer_drawn",
    "Ase.C58_background_transparent",
    "Ase.C58_as_read"
   ],
   "note": "False of the code for frames that use a feature the crate ignores (six counterexamples); proved for every other frame (Doc.Plain). C58_as_read says what is rendered for every file and layer choice: the reference picture of the file without the ignored features."
  },
  {
   "property": "C59",
   "status": "partial",
   "theorems": [
    "Ase.C59_end_to_end_partial",
    "Ase.C59_as_read_partial"
   ],
   "note": "Composition of C54, C33, C38 and C58 with their limits; C59_as_read_partial is without the limit Doc.Plain, for any layer choice, and shows the reference picture of the sprite without the features the crate ignores."
  },
  {
   "property": "C60",
   "status": "partial",
   "theorems": [
    "Ase.C60_slots_partial",
    "Ase.C60_slots_quadratic",
    "Ase.C60_buffers_partial",
    "Ase.C60_small_file_large_image"
   ],
   "note": "Quadratic bound for slots and linear bound for raw images; the other two theorems show that no linear bound holds for slots and none at all for compressed images."
  },
  {
   "property": "C61",
   "status": "proved",
   "theorems": [
    "Ase.C61_header_errors",
    "Ase.C61_chunk_errors",
    "Ase.C61_content_errors",
    "Ase.C61_frame_errors",
    "Ase.C61_file_errors",
    "Ase.C61_tags_failure",
    "Ase.C61_palette_failure",
    "Ase.C61_cause_hidden"
   ],
   "note": "Equivalences for headers, chunks, frames, whole files, tags chunks and palette chunks; C61_content_errors lists which errors a chunk content can give."
  },
  {
   "property": "C62",
   "status": "proved",
   "theorems": [
    "Ase.C62_positions"
   ],
   "note": ""
  },
  {
   "property": "C63",
   "status": "proved",
   "theorems": [
    "Ase.C63_images"
   ],
   "note": ""
  },
  {
   "property": "C64",
   "status": "proved",
   "theorems": [
    "Ase.C64_local"
   ],
   "note": ""
  },
  {
   "property": "C65",
   "status": "proved",
   "theorems": [
    "Ase.C65_appended",
    "Ase.C65_loads"
   ],
   "note": ""
  },
  {
   "property": "C66",
   "status": "proved",
   "theorems": [
    "Ase.C66_blend",
    "Ase.C66_not_more_transparent",
    "Ase.C66_alpha"
   ],
   "note": ""
  },
  {
   "property": "C67",
   "status": "partial",
   "theorems": [
    "Ase.C67_ranges_partial",
    "Ase.C67_beyond_the_last_frame"
   ],
   "note": "Only that ranges are not empty; C67_beyond_the_last_frame is a file whose tags lie outside."
  },
  {
   "property": "C68",
   "status": "proved",
   "theorems": [
    "Ase.C68_load_image",
    "Ase.C68_render",
    "Ase.C68_storage",
    "Ase.C68_fits",
    "Ase.C68_stored_blocks"
   ],
   "note": "C68_fits and C68_stored_blocks are about the concrete RFC 1950/1951 decoder."
  },
  {
   "property": "C69",
   "status": "partial",
   "theorems": [
    "Ase.C69_64_bits",
    "Ase.C69_32_bits_partial",
    "Ase.C69_32_bits_overflow",
    "Ase.C69_32_bits_capacity",
    "Ase.C69_32_bits_wrap"
   ],
   "note": "Proved for 64 bits, and for 32 bits with sizes that fit; beyond that it is false of the code, shown by the other three theorems."
  },
  {
   "property": "C70",
   "status": "proved",
   "theorems": [
    "Ase.C70_read",
    "Ase.C70_load",
    "Ase.C70_quadratic",
    "Ase.C70_image",
    "Ase.C70_render",
    "Ase.C70_cel"
   ],
   "note": "Steps as counted by Model/Cost, Model/CostLoad and Model/CostRender; see DESIGN.md for what is counted."
  },
  {
   "property": "C71",
   "status": "proved",
   "theorems": [
    "Ase.C71_texts",
    "Ase.C71_identifies",
    "Ase.C71_printable",
    "Ase.C71_length",
    "Ase.C71_dump"
   ],
   "note": "Texts of nom, std and derived Debug modelled from their documentation."
  },
  {
   "property": "C72",
   "status": "proved",
   "theorems": [
    "Ase.C72_same_pictures"
   ],
   "note": ""
  },
  {
   "property": "C73",
   "status": "proved",
   "theorems": [
    "Ase.C73_moved_pictures"
   ],
   "note": "Whether both renderings succeed: in release builds, or without HSL modes; the colours: always."
  },
  {
   "property": "C74",
   "status": "proved",
   "theorems": [
    "Ase.C74_hidden",
    "Ase.C74_any_buffer",
    "Ase.C74_on_top"
   ],
   "note": ""
  },
  {
   "property": "C75",
   "status": "partial",
   "theorems": [
    "Ase.C75_bytes",
    "Ase.C75_equal_bytes_partial",
    "Ase.C75_every_hasher_partial",
    "Ase.C75_equal_hash_other_picture",
    "Ase.C75_equal_picture_other_hash"
   ],
   "note": "False of any 64-bit hash (C75_equal_hash_other_picture); what holds is that equal hash input means equal pictures. The converse fails too: cels on hidden layers are hashed."
  },
  {
   "property": "C76",
   "status": "partial",
   "theorems": [
    "Ase.C76_hsl_colour_partial",
    "Ase.C76_not_w3c"
   ],
   "note": "False of the code (C76_not_w3c). Proved in release builds (debug builds panic, C50): the formulas with the wrong range and the wrong ties, with a bound on the rounding error; for colours without saturation, where the code divides a rounding error by itself, all channels are the same and 0, 254 or 255 unless the luminosity is below 1."
  },
  {
   "property": "C77",
   "status": "proved",
   "theorems": [
    "Ase.C77_strokes",
    "Ase.C77_damage",
    "Ase.C77_order",
    "Ase.C77_palette"
   ],
   "note": ""
  },
  {
   "property": "C78",
   "status": "proved",
   "theorems": [
    "Ase.C78_stroke",
    "Ase.C78_soft_light",
    "Ase.C78_opaque",
    "Ase.C78_no_buildup",
    "Ase.C78_alpha",
    "Ase.C78_translucent",
    "Ase.C78_faint"
   ],
   "note": "C78_faint: on a nearly transparent pixel one normal stroke can be off by 84, so the bound for translucent pixels has to grow as alpha falls."
  },
  {
   "property": "C79",
   "status": "proved",
   "theorems": [
    "Ase.C79_channels"
   ],
   "note": ""
  },
  {
   "property": "C80",
   "status": "proved",
   "theorems": [
    "Ase.C80_brighter"
   ],
   "note": ""
  },
  {
   "property": "C81",
   "status": "proved",
   "theorems": [
    "Ase.C81_conforms",
    "Ase.C81_unique",
    "Ase.C81_exists",
    "Ase.C81_images",
    "Ase.C81_same_image",
    "Ase.C81_any_compression"
   ],
   "note": "about every decompressor that conforms to the RFCs, with the executable decoder as an instance; flate2 itself is not modelled"
  },
  {
   "property": "C82",
   "status": "proved",
   "theorems": [
    "Ase.C82_stroke",
    "Ase.C82_translucent",
    "Ase.C82_neutral",
    "Ase.C82_same"
   ],
   "note": "C82_translucent: on a pixel that is not opaque the neutral colour shows (as in Aseprite)."
  },
  {
   "property": "C83",
   "status": "proved",
   "theorems": [
    "Ase.C83_stroke",
    "Ase.C83_negative"
   ],
   "note": ""
  },
  {
   "property": "C84",
   "status": "proved",
   "theorems": [
    "Ase.C84_symmetric",
    "Ase.C84_order",
    "Ase.C84_multiply"
   ],
   "note": "C84_multiply: the order of multiplying layers matters by rounding, so it is not among the four."
  },
  {
   "property": "C85",
   "status": "proved",
   "theorems": [
    "Ase.C85_darken",
    "Ase.C85_translucent",
    "Ase.C85_between"
   ],
   "note": "C85_translucent: not so on a pixel that is not opaque."
  },
  {
   "property": "C86",
   "status": "proved",
   "theorems": [
    "Ase.C86_reserved",
    "Ase.C86_outcome"
   ],
   "note": "Reserved bytes at places that depend on the data (single tags, external files, tilemap cels) are existentially quantified in the layouts of C12, C13, C18."
  },
  {
   "property": "C87",
   "status": "proved",
   "theorems": [
    "Ase.C87_load_image",
    "Ase.C87_render",
    "Ase.C87_color_mode",
    "Ase.C87_to_rgba",
    "Ase.C87_palette"
   ],
   "note": ""
  },
  {
   "property": "C88",
   "status": "partial",
   "theorems": [
    "Ase.C88_grayscale_partial",
    "Ase.C88_grey_partial",
    "Ase.C88_not_grey"
   ],
   "note": "Holds for all modes but soft light, hue and saturation; for each of these C88_not_grey shows a grayscale sprite that is rendered in colour."
  },
  {
   "property": "C89",
   "status": "proved",
   "theorems": [
    "Ase.C89_changed"
   ],
   "note": ""
  },
  {
   "property": "C90",
   "status": "proved",
   "theorems": [
    "Ase.C90_film",
    "Ase.C90_from_scratch",
    "Ase.C90_flatten"
   ],
   "note": ""
  },
  {
   "property": "C91",
   "status": "proved",
   "theorems": [
    "Ase.C91_crash",
    "Ase.C91_release"
   ],
   "note": "Bytes behind the canvas and the length are C36."
  },
  {
   "property": "C92",
   "status": "proved",
   "theorems": [
    "Ase.C92_shown",
    "Ase.C92_links",
    "Ase.C92_frames"
   ],
   "note": ""
  },
  {
   "property": "C93",
   "status": "proved",
   "theorems": [
    "Ase.C93_drawings",
    "Ase.C93_layer"
   ],
   "note": "Files with tilemap layers are excluded: for them layers are taken by wrong numbers (C34)."
  },
  {
   "property": "C94",
   "status": "proved",
   "theorems": [
    "Ase.C94_failed",
    "Ase.C94_repeated"
   ],
   "note": ""
  },
  {
   "property": "C95",
   "status": "proved",
   "theorems": [
    "Ase.C95_stroke",
    "Ase.C95_backdrop",
    "Ase.C95_invisible",
    "Ase.C95_layers",
    "Ase.C95_hsl"
   ],
   "note": "C95_hsl: the HSL modes do show pixels of alpha 1 on layers of low opacity, which is why they are excluded there."
  },
  {
   "property": "C96",
   "status": "proved",
   "theorems": [
    "Ase.C96_merge",
    "Ase.C96_rounding"
   ],
   "note": ""
  },
  {
   "property": "C97",
   "status": "proved",
   "theorems": [
    "Ase.C97_load",
    "Ase.C97_elsewhere",
    "Ase.C97_pixels"
   ],
   "note": ""
  },
  {
   "property": "C98",
   "status": "proved",
   "theorems": [
    "Ase.C98_more_opaque",
    "Ase.C98_selection",
    "Ase.C98_hue_false"
   ],
   "note": "the modes on hue, saturation, colour and luminosity are excepted in the statement; C98_hue_false shows that they have to be"
  },
  {
   "property": "C99",
   "status": "proved",
   "theorems": [
    "Ase.C99_load",
    "Ase.C99_images",
    "Ase.C99_pictures"
   ],
   "note": ""
  },
  {
   "property": "C100",
   "status": "proved",
   "theorems": [
    "Ase.C100_pixel",
    "Ase.C100_again",
    "Ase.C100_not_always"
   ],
   "note": "C100_not_always: two modes for which the picture changes."
  },
  {
   "property": "C101",
   "status": "proved",
   "theorems": [
    "Ase.C101_eyes",
    "Ase.C101_mask",
    "Ase.C101_ignored"
   ],
   "note": ""
  },
  {
   "property": "C102",
   "status": "proved",
   "theorems": [
    "Ase.C102_effect",
    "Ase.C102_fade",
    "Ase.C102_strokes",
    "Ase.C102_baked",
    "Ase.C102_hsl_false"
   ],
   "note": "the modes on hue, saturation, colour and luminosity are excepted in the statement; C102_hsl_false shows that they have to be"
  },
  {
   "property": "C103",
   "status": "proved",
   "theorems": [
    "Ase.C103_pieces",
    "Ase.C103_columns",
    "Ase.C103_rows",
    "Ase.C103_trim"
   ],
   "note": ""
  },
  {
   "property": "C104",
   "status": "proved",
   "theorems": [
    "Ase.C104_asked",
    "Ase.C104_log",
    "Ase.C104_pure"
   ],
   "note": ""
  },
  {
   "property": "C105",
   "status": "proved",
   "theorems": [
    "Ase.C105_finished",
    "Ase.C105_progress",
    "Ase.C105_any_moment",
    "Ase.C105_elsewhere",
    "Ase.C105_any_order"
   ],
   "note": ""
  },
  {
   "property": "C106",
   "status": "proved",
   "theorems": [
    "Ase.C106_frame",
    "Ase.C106_image"
   ],
   "note": ""
  },
  {
   "property": "C107",
   "status": "proved",
   "theorems": [
    "Ase.C107_returns",
    "Ase.C107_image",
    "Ase.C107_frame",
    "Ase.C107_left",
    "Ase.C107_enough",
    "Ase.C107_combined"
   ],
   "note": ""
  },
  {
   "property": "C108",
   "status": "proved",
   "theorems": [
    "Ase.C108_stroke",
    "Ase.C108_canvas",
    "Ase.C108_merge"
   ],
   "note": ""
  },
  {
   "property": "C109",
   "status": "proved",
   "theorems": [
    "Ase.C109_drift",
    "Ase.C109_level",
    "Ase.C109_sum",
    "Ase.C109_exact",
    "Ase.C109_soft_exact",
    "Ase.C109_jump"
   ],
   "note": ""
  },
  {
   "property": "C110",
   "status": "proved",
   "theorems": [
    "Ase.C110_buffer",
    "Ase.C110_success",
    "Ase.C110_pixels",
    "Ase.C110_edit",
    "Ase.C110_eyes",
    "Ase.C110_image"
   ],
   "note": ""
  },
  {
   "property": "C111",
   "status": "proved",
   "theorems": [
    "Ase.C111_elsewhere",
    "Ase.C111_pixels",
    "Ase.C111_hidden",
    "Ase.C111_loads",
    "Ase.C111_edit"
   ],
   "note": ""
  },
  {
   "property": "C112",
   "status": "proved",
   "theorems": [
    "Ase.C112_frame",
    "Ase.C112_frame_number",
    "Ase.C112_chunk",
    "Ase.C112_chunk_number",
    "Ase.C112_surplus",
    "Ase.C112_cel",
    "Ase.C112_pictures",
    "Ase.C112_frame_pictures"
   ],
   "note": ""
  },
  {
   "property": "C113",
   "status": "proved",
   "theorems": [
    "Ase.C113_pictures",
    "Ase.C113_loads"
   ],
   "note": ""
  },
  {
   "property": "C114",
   "status": "proved",
   "theorems": [
    "Ase.C114_drawings",
    "Ase.C114_layers",
    "Ase.C114_loads"
   ],
   "note": "Files with tilemap layers are excluded: for them layers are taken by wrong numbers (C34)."
  },
  {
   "property": "C115",
   "status": "proved",
   "theorems": [
    "Ase.C115_add",
    "Ase.C115_sub",
    "Ase.C115_mul",
    "Ase.C115_div",
    "Ase.C115_sqrt",
    "Ase.C115_constants",
    "Ase.C115_one",
    "Ase.C115_zeros",
    "Ase.C115_special",
    "Ase.C115_compare",
    "Ase.C115_extremes",
    "Ase.C115_cast",
    "Ase.C115_ieee",
    "Ase.C115_determined",
    "Ase.C115_blend",
    "Ase.C115_machines"
   ],
   "note": "That Rust's f64 follows the standard is trusted; fused or extended precision is not used by Rust."
  },
  {
   "property": "C116",
   "status": "proved",
   "theorems": [
    "Ase.C116_contract",
    "Ase.C116_stable",
    "Ase.C116_round_trip",
    "Ase.C116_cut",
    "Ase.C116_checksum",
    "Ase.C116_load_image"
   ],
   "note": "flate2 is a parameter; that it conforms to the RFCs is trusted, Model/Inflate shows that a conforming decompressor exists."
  },
  {
   "property": "C117",
   "status": "proved",
   "theorems": [
    "Ase.C117_sort",
    "Ase.C117_setSaturation",
    "Ase.C117_formula",
    "Ase.C117_same",
    "Ase.C117_grey",
    "Ase.C117_matters"
   ],
   "note": "The constant is a parameter of Model/Saturation."
  },
  {
   "property": "C118",
   "status": "proved",
   "theorems": [
    "Ase.C118_contract",
    "Ase.C118_depends",
    "Ase.C118_update",
    "Ase.C118_again"
   ],
   "note": "The range of a chunk is given by its two ends: ranges that have been iterated over before are not represented."
  },
  {
   "property": "C119",
   "status": "proved",
   "theorems": [
    "Ase.C119_prefix",
    "Ase.C119_rest",
    "Ase.C119_frames",
    "Ase.C119_no_panic",
    "Ase.C119_panics"
   ],
   "note": "Which bytes the scalars, strings, the header and the chunks consist of is stated in other properties (C01 to C03, C05 and following); here only what a caller composing them relies on."
  },
  {
   "property": "C120",
   "status": "proved",
   "theorems": [
    "Ase.C120_final",
    "Ase.C120_part",
    "Ase.C120_rest_final",
    "Ase.C120_rest",
    "Ase.C120_raw_file_final",
    "Ase.C120_raw_file",
    "Ase.C120_file",
    "Ase.C120_not_conversely"
   ],
   "note": "nom's `complete` parsers are modelled: they report an unexpected end as `Error(Eof)`; `Incomplete` does not occur."
  },
  {
   "property": "C121",
   "status": "proved",
   "theorems": [
    "Ase.C121_rewrite",
    "Ase.C121_flips",
    "Ase.C121_load",
    "Ase.C121_normal_form",
    "Ase.C121_unknown_codes_change"
   ],
   "note": "Unlike C54, which starts from contents that fit the format, this starts from any accepted file; no assumption on the stack is needed for the second reading."
  },
  {
   "property": "C122",
   "status": "proved",
   "theorems": [
    "Ase.C122_loads",
    "Ase.C122_deleted",
    "Ase.C122_all",
    "Ase.C122_mask",
    "Ase.C122_visible"
   ],
   "note": "With tilemap layers the crate matches cels with wrong layers (C34), hence the hypothesis NoTilemaps."
  },
  {
   "property": "C123",
   "status": "proved",
   "theorems": [
    "Ase.C123_dirty",
    "Ase.C123_still"
   ],
   "note": "With tilemap layers the crate matches cels with wrong layers (C34), hence the hypothesis NoTilemaps."
  },
  {
   "property": "C124",
   "status": "proved",
   "theorems": [
    "Ase.C124_by_hand"
   ],
   "note": "On buffers that are not zeroed a short stream leaves old bytes (C44), hence zeroed ones."
  },
  {
   "property": "C125",
   "status": "proved",
   "theorems": [
    "Ase.C125_others_removed",
    "Ase.C125_on_top"
   ],
   "note": "This says exactly what happens in the case excluded by NoTilemaps in C93, C101, C114, C122 and C123; that it is not what a user wants is C34."
  },
  {
   "property": "C126",
   "status": "proved",
   "theorems": [
    "Ase.C126_readme",
    "Ase.C126_succeeds",
    "Ase.C126_builds"
   ],
   "note": ""
  },
  {
   "property": "C127",
   "status": "proved",
   "theorems": [
    "Ase.C127_chunk",
    "Ase.C127_properties",
    "Ase.C127_frame",
    "Ase.C127_file"
   ],
   "note": "Exact for all chunk types and nested properties. In release builds a properties size below 8 wraps around to nearly 2^64 and gives Eof; in debug builds it is a panic (see C04)."
  },
  {
   "property": "C128",
   "status": "proved",
   "theorems": [
    "Ase.C128_file",
    "Ase.C128_load",
    "Ase.C128_exchange",
    "Ase.C128_next_frame",
    "Ase.C128_records"
   ],
   "note": "Generalises C24. The kinds are: layers, tags, slices, palettes (all three types), the cels of each layer, everything else. An example shows that the errors can differ."
  },
  {
   "property": "C129",
   "status": "proved",
   "theorems": [
    "Ase.C129_possible",
    "Ase.C129_every",
    "Ase.C129_exactly"
   ],
   "note": "The size restriction of the converse (no frame needs 4 GiB even if it holds all layers and tags) is sufficient, not necessary. Of the parsed file behind the sprite the statement covers the size, colour depth, transparent index and palette."
  },
  {
   "property": "C130",
   "status": "proved",
   "theorems": [
    "Ase.C130_only",
    "Ase.C130_each",
    "Ase.C130_exactly",
    "Ase.C130_load",
    "Ase.C130_load_image",
    "Ase.C130_render"
   ],
   "note": "For load_image and rendering the zlib decoder is the one of the model (C81); the statements about parsing do not depend on it."
  },
  {
   "property": "C131",
   "status": "proved",
   "theorems": [
    "Ase.C131_parse",
    "Ase.C131_parse_only",
    "Ase.C131_load",
    "Ase.C131_load_image",
    "Ase.C131_render",
    "Ase.C131_render_missing",
    "Ase.C131_combined"
   ],
   "note": "The zlib decoder is the one of the model (C81). A stack overflow is modelled as more nested calls than the stack has room for."
  },
  {
   "property": "C132",
   "status": "proved",
   "theorems": [
    "Ase.C132_possible",
    "Ase.C132_every",
    "Ase.C132_exactly",
    "Ase.C132_text",
    "Ase.C132_properties"
   ],
   "note": "User data with properties counts as possible if some chunk body is read as it (C16 and C17 say which); C132_properties gives a sufficient condition."
  },
  {
   "property": "C133",
   "status": "proved",
   "theorems": [
    "Ase.C133_values",
    "Ase.C133_stored",
    "Ase.C133_user_data",
    "Ase.C133_files"
   ],
   "note": "In the layout the crate reads, where nested maps have a key (C16)."
  },
  {
   "property": "C134",
   "status": "proved",
   "theorems": [
    "Ase.C134_fewer",
    "Ase.C134_layers",
    "Ase.C134_images",
    "Ase.C134_once",
    "Ase.C134_combined",
    "Ase.C134_debug_needs_condition"
   ],
   "note": "The condition NoAssertions (release build, or no selected layer with an HSL mode) is needed: C134_debug_needs_condition."
  },
  {
   "property": "C135",
   "status": "proved",
   "theorems": [
    "Ase.C135_debug",
    "Ase.C135_visible",
    "Ase.C135_combined"
   ],
   "note": "The luminosity and saturation are those of the formulas of C76, with channels from 0 to 255."
  },
  {
   "property": "C136",
   "status": "proved",
   "theorems": [
    "Ase.C136_frames",
    "Ase.C136_other",
    "Ase.C136_two"
   ],
   "note": ""
  },
  {
   "property": "C137",
   "status": "proved",
   "theorems": [
    "Ase.C137_drawings",
    "Ase.C137_layers"
   ],
   "note": "Files with tilemap layers are excluded: for them layers are taken by wrong numbers (C34)."
  },
  {
   "property": "C138",
   "status": "proved",
   "theorems": [
    "Ase.C138_one_file"
   ],
   "note": "The file is given by C129, so this is about the existence of a file, not about a function of the crate that writes one. Cels without a layer, which are never drawn, are left out."
  },
  {
   "property": "C139",
   "status": "proved",
   "theorems": [
    "Ase.C139_layer_files"
   ],
   "note": "The files are given by C129: existence, not a function of the crate."
  },
  {
   "property": "C140",
   "status": "proved",
   "theorems": [
    "Ase.C140_joined"
   ],
   "note": "Sprites with cels on no layer (tilemap layers, C34) are excluded: moved up, such cels could get a layer."
  },
  {
   "property": "C141",
   "status": "proved",
   "theorems": [
    "Ase.C141_script",
    "Ase.C141_cut"
   ],
   "note": "The file is given by C129: existence, not a function of the crate. Cels without a layer, which are never drawn, are left out."
  },
  {
   "property": "C142",
   "status": "proved",
   "theorems": [
    "Ase.C142_window",
    "Ase.C142_tiles"
   ],
   "note": "The files are given by C129: existence, not a function of the crate."
  },
  {
   "property": "C143",
   "status": "proved",
   "theorems": [
    "Ase.C143_unpacked",
    "Ase.C143_images"
   ],
   "note": "The file is given by C129: existence, not a function of the crate. That an image may depend on the buffer before: C44."
  },
  {
   "property": "C144",
   "status": "proved",
   "theorems": [
    "Ase.C144_turned"
   ],
   "note": "The file is given by C129: existence, not a function of the crate."
  },
  {
   "property": "C145",
   "status": "proved",
   "theorems": [
    "Ase.C145_sheet"
   ],
   "note": "The file is given by C129 by way of C142 and C138: existence, not a function of the crate. Without the condition on the edges a frame would show on its neighbours."
  },
  {
   "property": "C146",
   "status": "proved",
   "theorems": [
    "Ase.C146_camera",
    "Ase.C146_sheet",
    "Ase.C146_album"
   ],
   "note": "The file is given by C129: existence, not a function of the crate. Cels without a layer, which are never drawn, are left out."
  },
  {
   "property": "C147",
   "status": "proved",
   "theorems": [
    "Ase.C147_trimmed",
    "Ase.C147_sheet"
   ],
   "note": "The file is given by C129: existence, not a function of the crate. A cel beyond the canvas is kept with an empty image."
  },
  {
   "property": "C148",
   "status": "proved",
   "theorems": [
    "Ase.C148_chosen"
   ],
   "note": "The file is given by C129: existence, not a function of the crate."
  },
  {
   "property": "C149",
   "status": "proved",
   "theorems": [
    "Ase.C149_relabelled"
   ],
   "note": "The file is given by C129: existence, not a function of the crate."
  },
  {
   "property": "C150",
   "status": "proved",
   "theorems": [
    "Ase.C150_ungrouped"
   ],
   "note": "The file is given by C129: existence, not a function of the crate. With C125 neither tilemaps nor groups are needed."
  },
  {
   "property": "C151",
   "status": "proved",
   "theorems": [
    "Ase.C151_inserted"
   ],
   "note": "The file is given by C129: existence, not a function of the crate."
  },
  {
   "property": "C152",
   "status": "proved",
   "theorems": [
    "Ase.C152_repainted"
   ],
   "note": "The file is given by C129: existence, not a function of the crate."
  },
  {
   "property": "C153",
   "status": "proved",
   "theorems": [
    "Ase.C153_plain"
   ],
   "note": "The file is given by C129: existence, not a function of the crate."
  },
  {
   "property": "C154",
   "status": "proved",
   "theorems": [
    "Ase.C154_removed"
   ],
   "note": "The file is given by C129: existence, not a function of the crate. The inverse of C151."
  }
 ]
}