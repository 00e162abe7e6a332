{
 "claims": [
  {
   "property": "C01",
   "status": "proved",
   "theorems": [
    "Avb.C01_fits",
    "Avb.C01_refused",
    "Avb.C01_short",
    "Avb.C01_read",
    "Avb.C01_canonical",
    "Avb.C01_bool",
    "Avb.C01_bool_read"
   ],
   "note": "All integer widths, both byte orders; refusal, short reads and uniqueness of the stored form included."
  },
  {
   "property": "C02",
   "status": "proved",
   "theorems": [
    "Avb.C02_text",
    "Avb.C02_text_same",
    "Avb.C02_empty",
    "Avb.C02_not_encodable",
    "Avb.C02_too_long",
    "Avb.C02_macroman_bytes",
    "Avb.C02_table"
   ],
   "note": "Both encodings; for Mac Roman every byte and every character through the whole table."
  },
  {
   "property": "C03",
   "status": "proved",
   "theorems": [
    "Avb.C03_lost"
   ],
   "note": "The property is about a loss: proved for every text of 65535 encoded bytes."
  },
  {
   "property": "C04",
   "status": "proved",
   "theorems": [
    "Avb.C04_uuid",
    "Avb.C04_raw_uuid",
    "Avb.C04_mob_id",
    "Avb.C04_rect",
    "Avb.C04_colour",
    "Avb.C04_date",
    "Avb.C04_uuid_framing",
    "Avb.C04_mob_id_framing",
    "Avb.C04_rect_framing",
    "Avb.C04_colour_framing"
   ],
   "note": ""
  },
  {
   "property": "C05",
   "status": "proved",
   "theorems": [
    "Avb.C05_form",
    "Avb.C05_not_finite",
    "Avb.C05_integer",
    "Avb.C05_too_large",
    "Avb.C05_error",
    "Avb.C05_wrong_rates",
    "Avb.C05_drift",
    "Avb.C05_common_rates"
   ],
   "note": "C05_wrong_rates and C05_drift show that not all rates survive."
  },
  {
   "property": "C06",
   "status": "proved",
   "theorems": [
    "Avb.C06_read_back",
    "Avb.C06_unchanged",
    "Avb.C06_references",
    "Avb.C06_renumbered",
    "Avb.C06_stored",
    "Avb.C06_distinct"
   ],
   "note": "All 66 classes; the exceptions are those of C03, C09 and C40."
  },
  {
   "property": "C07",
   "status": "proved",
   "theorems": [
    "Avb.C07_length",
    "Avb.C07_raises",
    "Avb.C07_same"
   ],
   "note": ""
  },
  {
   "property": "C08",
   "status": "proved",
   "theorems": [
    "Avb.C08_rewrite",
    "Avb.C08_resave",
    "Avb.C08_forever",
    "Avb.C08_drift",
    "Avb.C08_nul"
   ],
   "note": "C08_drift and C08_nul show that the two conditions are needed."
  },
  {
   "property": "C09",
   "status": "proved",
   "theorems": [
    "Avb.C09_trackgroup",
    "Avb.C09_cut",
    "Avb.C09_longer"
   ],
   "note": "The plain track group, whose reader accepts nothing complete, is C09_trackgroup."
  },
  {
   "property": "C10",
   "status": "proved",
   "theorems": [
    "Avb.C10_chunk",
    "Avb.C10_unterminated",
    "Avb.C10_closes",
    "Avb.C10_ids"
   ],
   "note": ""
  },
  {
   "property": "C11",
   "status": "proved",
   "theorems": [
    "Avb.C11_unknown",
    "Avb.C11_chunk"
   ],
   "note": ""
  },
  {
   "property": "C12",
   "status": "proved",
   "theorems": [
    "Avb.C12_save_open",
    "Avb.C12_save_succeeds"
   ],
   "note": "Conditions: distinct instance ids, readable objects, all objects writable."
  },
  {
   "property": "C13",
   "status": "proved",
   "theorems": [
    "Avb.C13_backwards"
   ],
   "note": ""
  },
  {
   "property": "C14",
   "status": "proved",
   "theorems": [
    "Avb.C14_one_chunk_each",
    "Avb.C14_count"
   ],
   "note": ""
  },
  {
   "property": "C15",
   "status": "proved",
   "theorems": [
    "Avb.C15_cycle_never_saved",
    "Avb.C15_acyclic_walk"
   ],
   "note": "Non-termination of the recursion is modelled as failure at every amount of fuel."
  },
  {
   "property": "C16",
   "status": "proved",
   "theorems": [
    "Avb.C16_header",
    "Avb.C16_creator",
    "Avb.C16_creator_stable"
   ],
   "note": ""
  },
  {
   "property": "C17",
   "status": "proved",
   "theorems": [
    "Avb.C17_chunk_table",
    "Avb.C17_missing_chunks"
   ],
   "note": ""
  },
  {
   "property": "C18",
   "status": "proved",
   "theorems": [
    "Avb.Session.C18_same",
    "Avb.Session.C18_modified",
    "Avb.Session.C18_id",
    "Avb.Session.C18_one_id",
    "Avb.Session.C18_first"
   ],
   "note": "Invariant over every history of a program with the weak cache, the table of modified objects and the garbage collector; the parser is an arbitrary function."
  },
  {
   "property": "C19",
   "status": "proved",
   "theorems": [
    "Avb.Session.C19_fresh",
    "Avb.Session.C19_unused",
    "Avb.Session.C19_kept"
   ],
   "note": "Same histories as C18."
  },
  {
   "property": "C20",
   "status": "proved",
   "theorems": [
    "Avb.Session.C20_assigned",
    "Avb.Session.C20_list",
    "Avb.Session.C20_list_lost",
    "Avb.Session.C20_helper_lost"
   ],
   "note": "C20_list_lost and C20_helper_lost prove that the exceptions are real for every object of every file."
  },
  {
   "property": "C21",
   "status": "proved",
   "theorems": [
    "Avb.RefList.C21_list",
    "Avb.RefList.C21_ignored",
    "Avb.RefList.C21_ignored_same",
    "Avb.RefList.C21_slice",
    "Avb.RefList.C21_search",
    "Avb.RefList.C21_reversed",
    "Avb.RefList.C21_unreported",
    "Avb.RefList.C21_direct",
    "Avb.RefList.C21_reported",
    "Avb.RefList.C21_index",
    "Avb.RefList.C21_insert",
    "Avb.RefList.C21_slice_items",
    "Avb.RefList.C21_slice_change",
    "Avb.RefList.C21_change",
    "Avb.RefList.C21_outside",
    "Avb.RefList.C21_append"
   ],
   "note": "Refinement to Python lists over all call sequences; the differences (slice, remove, in, clear, sort, reverse) are proved as such. `C21_ignored_same`: where the differing calls agree with Python's list."
  },
  {
   "property": "C22",
   "status": "proved",
   "theorems": [
    "Avb.AttrDict.C22_dict",
    "Avb.AttrDict.C22_read",
    "Avb.AttrDict.C22_saved",
    "Avb.AttrDict.C22_refused",
    "Avb.AttrDict.C22_collision"
   ],
   "note": "Refinement to an insertion-ordered dictionary over all call sequences; C22_collision is the merge of names."
  },
  {
   "property": "C23",
   "status": "proved",
   "theorems": [
    "Avb.C23_length",
    "Avb.C23_positions",
    "Avb.C23_next",
    "Avb.C23_first",
    "Avb.C23_last"
   ],
   "note": "The components are given as pairs of a flag and a length; C81 has the objects themselves, null components and components without length."
  },
  {
   "property": "C24",
   "status": "proved",
   "theorems": [
    "Avb.C24_inside",
    "Avb.C24_before",
    "Avb.C24_after",
    "Avb.C24_boundary",
    "Avb.C24_component"
   ],
   "note": "C24_boundary: clips own (start, end], not [start, end) as one would expect."
  },
  {
   "property": "C25",
   "status": "proved",
   "theorems": [
    "Avb.Curve.C25_empty",
    "Avb.Curve.C25_neighbours",
    "Avb.Curve.C25_sorted",
    "Avb.Curve.C25_last",
    "Avb.Curve.C25_error",
    "Avb.Curve.C25_offsets"
   ],
   "note": "Times are reals rounded by an arbitrary function; infinities and NaN are not modelled."
  },
  {
   "property": "C26",
   "status": "proved",
   "theorems": [
    "Avb.Curve.C26_bezier",
    "Avb.Curve.C26_bezier_value",
    "Avb.Curve.C26_bezier_reversed",
    "Avb.Curve.C26_bezier_fails",
    "Avb.Curve.C26_cubic",
    "Avb.Curve.C26_cubic_value",
    "Avb.Curve.C26_total",
    "Avb.Curve.C26_empty",
    "Avb.Curve.C26_before",
    "Avb.Curve.C26_after",
    "Avb.Curve.C26_constant",
    "Avb.Curve.C26_linear",
    "Avb.Curve.C26_linear_point",
    "Avb.Curve.C26_linear_bound",
    "Avb.Curve.C26_unknown",
    "Avb.Curve.C26_reference",
    "Avb.Curve.C26_duplicate_times",
    "Avb.Curve.C26_tangents"
   ],
   "note": "Curved kinds in exact real arithmetic; C26_bezier_fails, C26_bezier_reversed and C26_duplicate_times are the cases that raise."
  },
  {
   "property": "C27",
   "status": "proved",
   "theorems": [
    "Avb.C27_int",
    "Avb.C27_set_get",
    "Avb.C27_set_get_same",
    "Avb.C27_get_set",
    "Avb.C27_eq",
    "Avb.C27_order",
    "Avb.C27_lexicographic"
   ],
   "note": "Integers, all comparisons and the byte order; hash is determined by the bytes and not modelled separately."
  },
  {
   "property": "C28",
   "status": "proved",
   "theorems": [
    "Avb.C28_form",
    "Avb.C28_parse",
    "Avb.C28_round_trip",
    "Avb.C28_of_urn",
    "Avb.C28_injective",
    "Avb.C28_collision",
    "Avb.C28_new",
    "Avb.C28_wrong_count",
    "Avb.C28_sloppy",
    "Avb.C28_half_assigned",
    "Avb.C28_numeral",
    "Avb.C28_accepts"
   ],
   "note": "The exceptions are characterised exactly; C28_sloppy and C28_half_assigned are witnesses for malformed texts. str.lower and int() are modelled for ASCII."
  },
  {
   "property": "C29",
   "status": "proved",
   "theorems": [
    "Avb.C29_fields_determine",
    "Avb.C29_length",
    "Avb.C29_instanceHigh",
    "Avb.C29_instanceMid",
    "Avb.C29_instanceLow",
    "Avb.C29_data1",
    "Avb.C29_data2",
    "Avb.C29_data3",
    "Avb.C29_label",
    "Avb.C29_data4",
    "Avb.C29_material",
    "Avb.C29_from_dict",
    "Avb.C29_from_dict_refused",
    "Avb.C29_dict",
    "Avb.C29_new"
   ],
   "note": "All setters, material, dictionaries and MobID.new()."
  },
  {
   "property": "C30",
   "status": "proved",
   "theorems": [
    "Avb.BinFind.C30_history",
    "Avb.BinFind.C30_found",
    "Avb.BinFind.C30_stale",
    "Avb.BinFind.C30_filled",
    "Avb.BinFind.C30_null"
   ],
   "note": "Mobs are found by value of their id; for mob ids changed in place while they are keys see C75."
  },
  {
   "property": "C31",
   "status": "proved",
   "theorems": [
    "Avb.BinFind.C31_listings",
    "Avb.BinFind.C31_partition",
    "Avb.BinFind.C31_raises"
   ],
   "note": "Error branches included."
  },
  {
   "property": "C32",
   "status": "proved",
   "theorems": [
    "Avb.Depends.C32_ends_iff",
    "Avb.Depends.C32_cycle",
    "Avb.Depends.C32_acyclic",
    "Avb.Depends.C32_result"
   ],
   "note": "Termination is characterised exactly; walk_references inside one mob is a given finite list and lookups do not raise here: C82 has both over the objects of a file."
  },
  {
   "property": "C33",
   "status": "proved",
   "theorems": [
    "Avb.Fast.C33_same_fields",
    "Avb.Fast.C33_written",
    "Avb.Fast.C33_attributes",
    "Avb.Fast.C33_file",
    "Avb.Fast.C33_others",
    "Avb.Fast.C33_saved",
    "Avb.Fast.C33_negative_count",
    "Avb.Fast.C33_differences",
    "Avb.Fast.C33_attribute_names"
   ],
   "note": "All accelerated classes, per payload, per opened file and per saved file; C33_negative_count shows the condition on counts is needed. The C++ of _ext_core.cpp is modelled at the level of its read functions, memory safety is not."
  },
  {
   "property": "C34",
   "status": "proved",
   "theorems": [
    "Avb.Fast.C34_trailing",
    "Avb.Fast.C34_end_marker",
    "Avb.Fast.C34_attributes_end",
    "Avb.Fast.C34_component_lost",
    "Avb.Fast.C34_media_cut",
    "Avb.Fast.C34_selected",
    "Avb.Fast.C34_reference"
   ],
   "note": "C34_trailing and C34_end_marker are for all chunks; C34_reference is a concrete one."
  },
  {
   "property": "C35",
   "status": "proved",
   "theorems": [
    "Avb.C35_before_update",
    "Avb.C35_failed_save",
    "Avb.C35_after_update"
   ],
   "note": ""
  },
  {
   "property": "C36",
   "status": "proved",
   "theorems": [
    "Avb.Copy.C36_same_content",
    "Avb.Copy.C36_nothing_more",
    "Avb.Copy.C36_defaults",
    "Avb.Copy.C36_fresh",
    "Avb.Copy.C36_ids",
    "Avb.Copy.C36_unchanged",
    "Avb.Copy.C36_independent",
    "Avb.Copy.C36_independent'",
    "Avb.Copy.C36_buffers",
    "Avb.Copy.C36_parent",
    "Avb.Copy.C36_shared",
    "Avb.Copy.C36_shared_mob",
    "Avb.Copy.C36_duplicates",
    "Avb.Copy.C36_ends",
    "Avb.Copy.C36_depth",
    "Avb.Copy.C36_cycle",
    "Avb.Copy.C36_null_item",
    "Avb.Copy.C36_null_anywhere",
    "Avb.Copy.C36_bytes",
    "Avb.Copy.C36_constructor"
   ],
   "note": "On a heap model of Python objects; references are taken as looked up already (C18). Constructors are a parameter; an example table satisfies the assumptions. C36_shared and C36_duplicates record what copies do share or duplicate; the reference lists and attribute sets inside plain lists (which copy would not copy) are excluded."
  },
  {
   "property": "C37",
   "status": "proved",
   "theorems": [
    "Avb.C37_media_kinds",
    "Avb.C37_refused",
    "Avb.C37_injective",
    "Avb.C37_copy",
    "Avb.C37_usages",
    "Avb.C37_mob_types"
   ],
   "note": "All integers, via injectivity of decimal notation."
  },
  {
   "property": "C38",
   "status": "proved",
   "theorems": [
    "Avb.C38_written",
    "Avb.C38_back",
    "Avb.C38_read",
    "Avb.C38_saved"
   ],
   "note": ""
  },
  {
   "property": "C39",
   "status": "proved",
   "theorems": [
    "Avb.C39_form",
    "Avb.C39_items",
    "Avb.C39_any_count"
   ],
   "note": ""
  },
  {
   "property": "C40",
   "status": "proved",
   "theorems": [
    "Avb.C40_loaded",
    "Avb.C40_selector",
    "Avb.C40_plugins",
    "Avb.C40_value_type",
    "Avb.C40_value_type_saved",
    "Avb.C40_descriptors",
    "Avb.C40_marker",
    "Avb.C40_byte_order",
    "Avb.C40_sift"
   ],
   "note": "Together with C06 this separates the objects that come back from those that do not."
  },
  {
   "property": "C41",
   "status": "proved",
   "theorems": [
    "Avb.C41_new",
    "Avb.C41_unknown",
    "Avb.C41_name_ignored",
    "Avb.C41_fresh"
   ],
   "note": "Mob types that are not texts are not modelled."
  },
  {
   "property": "C42",
   "status": "proved",
   "theorems": [
    "Avb.C42_image",
    "Avb.C42_rgba"
   ],
   "note": ""
  },
  {
   "property": "C43",
   "status": "proved",
   "theorems": [
    "Avb.C43_only_own_objects",
    "Avb.C43_foreign_replaced"
   ],
   "note": "C43_foreign_replaced is the violation."
  },
  {
   "property": "C44",
   "status": "proved",
   "theorems": [
    "Avb.C44_update_small",
    "Avb.C44_update_torn"
   ],
   "note": "C44_update_torn is the violation for files of 256 objects or more."
  },
  {
   "property": "C45",
   "status": "proved",
   "theorems": [
    "Avb.C45_truncated_refused"
   ],
   "note": ""
  },
  {
   "property": "C46",
   "status": "proved",
   "theorems": [
    "Avb.Curve.C46_integrate",
    "Avb.Curve.C46_default",
    "Avb.Curve.C46_reversed",
    "Avb.Curve.C46_too_short",
    "Avb.Curve.C46_constant"
   ],
   "note": "Exact real arithmetic."
  },
  {
   "property": "C47",
   "status": "proved",
   "theorems": [
    "Avb.C47_accepted",
    "Avb.C47_not_none",
    "Avb.C47_unknown_class",
    "Avb.C47_error",
    "Avb.C47_trailing",
    "Avb.C47_truncated",
    "Avb.C47_file_ends",
    "Avb.C47_index"
   ],
   "note": "Portable readers; see C34 for the accelerated ones."
  },
  {
   "property": "C48",
   "status": "proved",
   "theorems": [
    "Avb.C48_saves",
    "Avb.C48_stored",
    "Avb.C48_same",
    "Avb.C48_renumbered",
    "Avb.C48_no_mob_id",
    "Avb.C48_no_utf8_name",
    "Avb.C48_large_rate"
   ],
   "note": "C48_saves is an equivalence over all 66 classes; the three counterexamples are loaded from concrete bytes."
  },
  {
   "property": "C49",
   "status": "proved",
   "theorems": [
    "Avb.C49_resave"
   ],
   "note": "Corollary of C50 for the unedited heap of the file (fileHeap)."
  },
  {
   "property": "C50",
   "status": "proved",
   "theorems": [
    "Avb.C50_edit"
   ],
   "note": "Built on C12_save_succeeds, C12_save_open and C48; the written size of each object must be below 4 GB and the graph acyclic (see C15)."
  },
  {
   "property": "C51",
   "status": "proved",
   "theorems": [
    "Avb.Work.C51_look",
    "Avb.Work.C51_same_bytes",
    "Avb.Work.C51_save"
   ],
   "note": "Invariant by induction over the history (Verif/Model/Work.lean), then C50. Edits that the library does not report (plain lists, helper values) are outside: see C20 and DESIGN.md."
  },
  {
   "property": "C52",
   "status": "proved",
   "theorems": [
    "Avb.C52_blocks",
    "Avb.C52_blocks_open",
    "Avb.C52_wrong_start",
    "Avb.C52_wrong_end",
    "Avb.C52_too_short",
    "Avb.C52_written",
    "Avb.C52_written_data",
    "Avb.C52_written_group"
   ],
   "note": "The table of versions (Cls.blocks) is independent of the model, taken from the source text."
  },
  {
   "property": "C53",
   "status": "proved",
   "theorems": [
    "Avb.C53_format",
    "Avb.C53_refused",
    "Avb.C53_written",
    "Avb.C53_prefix_free"
   ],
   "note": "The format of each class is written as a small grammar of byte strings in Verif/Spec/Format.lean, apart from the readers. A plain track group has no accepted payload (its reader always looks for one more byte). C53_written is about objects that can be read back (Readable)."
  },
  {
   "property": "C54",
   "status": "proved",
   "theorems": [
    "Avb.C54_legacy",
    "Avb.C54_plugin"
   ],
   "note": "C54_legacy covers nine classes, C54_plugin the audio suite effect. The place of the words is given by the grammar of Verif/Spec/Format.lean, the words by the bytes of the mob id."
  },
  {
   "property": "C55",
   "status": "proved",
   "theorems": [
    "Avb.Disk.C55_save_step",
    "Avb.Disk.C55_look",
    "Avb.Disk.C55_disk",
    "Avb.Disk.C55_save_again",
    "Avb.Disk.C55_own_path_loaded",
    "Avb.Disk.C55_own_path_lost"
   ],
   "note": "Verif/Model/Disk.lean, Verif/Props/Disk.lean. World = files on disk by path, objects in memory (C51's state), next_chunk_id, ref_mapping, octx. C55_save_step, C55_look, C55_disk by induction over histories; C55_save_again combines with C51. C55_own_path_loaded and C55_own_path_lost are about writing to the opened path; the read buffer of the open handle (which may still hold some bytes of the emptied file) and early flushes of a large write are not modelled."
  },
  {
   "property": "C56",
   "status": "proved",
   "theorems": [
    "Avb.C56_chunks",
    "Avb.Work.C56_class_id",
    "Avb.Work.C56_iter",
    "Avb.Work.C56_raises",
    "Avb.Work.C56_created_missing",
    "Avb.Work.C56_loop",
    "Avb.Work.C56_loop_raises"
   ],
   "note": "Verif/Model/Listing.lean, Verif/Props/Listing.lean. The generator is run to its end (list(f.iter_class_ids(ids))); work between two yields is not modelled. C56_created_missing is a finding: new objects are not listed before the file is saved and opened again. C56_loop, C56_loop_raises: with work between the rounds."
  },
  {
   "property": "C57",
   "status": "proved",
   "theorems": [
    "Avb.Work.C57_nothing_else",
    "Avb.Work.C57_save",
    "Avb.Work.C57_mobs",
    "Avb.Work.C57_fresh"
   ],
   "note": "C57_save: any history on a new file; C57_mobs: new file with n new mobs, exact contents; C57_fresh: the empty case; C57_nothing_else: lookups of numbers never given raise."
  },
  {
   "property": "C58",
   "status": "proved",
   "theorems": [
    "Avb.Factory.C58_direct",
    "Avb.Factory.C58_unknown",
    "Avb.Factory.C58_other",
    "Avb.Factory.C58_made",
    "Avb.Factory.C58_again",
    "Avb.Factory.C58_numbers"
   ],
   "note": "C58_direct, C58_unknown, C58_numbers: what holds; C58_other, C58_again: kept makers (finding)."
  },
  {
   "property": "C59",
   "status": "proved",
   "theorems": [
    "Avb.Resolve.C59_search",
    "Avb.Resolve.C59_track"
   ],
   "note": "C59_search: complete characterisation of the search; C59_track: with the bin after any history."
  },
  {
   "property": "C60",
   "status": "proved",
   "theorems": [
    "Avb.Dates.C60_kept",
    "Avb.Dates.C60_other_zone",
    "Avb.Dates.C60_skipped",
    "Avb.Dates.C60_range",
    "Avb.Dates.C60_resaved",
    "Avb.Dates.C60_bytes",
    "Avb.Dates.C60_moved",
    "Avb.Dates.C60_distance",
    "Avb.Dates.C60_again",
    "Avb.Dates.C60_objects",
    "Avb.Dates.C60_back",
    "Avb.Dates.C60_forward"
   ],
   "note": "The zone is arbitrary: an offset for every moment and a mktime that returns some moment showing the local time. Every save writes every reachable mob and last_save anew, so all their dates are concerned. The date text of the header is never read and not modelled."
  },
  {
   "property": "C61",
   "status": "proved",
   "theorems": [
    "Avb.Attrs.C61_classes",
    "Avb.Attrs.C61_names",
    "Avb.Attrs.C61_visible",
    "Avb.Attrs.C61_history",
    "Avb.Attrs.C61_unknown",
    "Avb.Attrs.C61_fixed",
    "Avb.Attrs.C61_get"
   ],
   "note": "The class statements are a table (Model/Attrs) extracted from the text of all modules; facts about the whole finite table are evaluated by the kernel and lifted to all names, values and histories by induction. Properties assigned to a descriptor that belong to another descriptor are kept in memory and not written by write."
  },
  {
   "property": "C62",
   "status": "proved",
   "theorems": [
    "Avb.Cross.C62_copy",
    "Avb.Cross.C62_saved",
    "Avb.Cross.C62_ends",
    "Avb.Cross.C62_under",
    "Avb.Cross.C62_plugin"
   ],
   "note": "Joins copying (C36, which is about Python objects) with the real contents of all 66 classes and the save (C51). Under the originals is meant along references; the copy that nothing refers to is not saved, as C14 says."
  },
  {
   "property": "C63",
   "status": "proved",
   "theorems": [
    "Avb.Fast.C63_inside",
    "Avb.Fast.C63_attributes",
    "Avb.Fast.C63_cdci",
    "Avb.Fast.C63_accepted",
    "Avb.Fast.C63_cut_box",
    "Avb.Fast.C63_file"
   ],
   "note": "C63_inside, C63_attributes: no reader but that of CDCI is undefined on any payload. C63_cdci: that one reads inside too. C63_accepted: payloads the portable reader accepts are fine. C63_cut_box: a CDCI payload that is undefined (a bug). C63_file: whole files. Allocation failure is not modelled."
  },
  {
   "property": "C64",
   "status": "proved",
   "theorems": [
    "Avb.C64_object",
    "Avb.C64_table",
    "Avb.C64_read",
    "Avb.C64_open",
    "Avb.C64_occur"
   ],
   "note": "C64_object: exceptions of the reader of each class. C64_table, C64_read, C64_open: opening and loading. C64_occur: witnesses of all eight. For the portable readers. MemoryError (a chunk size or object count of 4 GB) is not modelled."
  },
  {
   "property": "C65",
   "status": "proved",
   "theorems": [
    "Avb.C65_refs",
    "Avb.C65_refused",
    "Avb.C65_more",
    "Avb.C65_follow"
   ],
   "note": "C65_refs: every reference of every loaded object is in range. C65_follow: chains of references from the content. For the portable readers; the accelerated ones do not check (C34_reference)."
  },
  {
   "property": "C66",
   "status": "proved",
   "theorems": [
    "Avb.Work.C66_look",
    "Avb.Work.C66_edited",
    "Avb.Work.C66_kept",
    "Avb.Work.C66_save",
    "Avb.Work.C66_save_fails",
    "Avb.Work.C66_chunk",
    "Avb.Work.C66_header",
    "Avb.Work.C66_next",
    "Avb.Work.C66_list"
   ],
   "note": "C66_look, C66_edited, C66_kept, C66_chunk: lookups after close. C66_save, C66_save_fails: saves after close. Closing a new file does nothing (self.f is None), so it is not modelled. `C66_list`, `C66_next`: listings begun after and before `close`."
  },
  {
   "property": "C67",
   "status": "proved",
   "theorems": [
    "Avb.Defaults.C67_value",
    "Avb.Defaults.C67_edit_default",
    "Avb.Defaults.C67_edit_own",
    "Avb.Defaults.C67_assign",
    "Avb.Defaults.C67_copy",
    "Avb.Defaults.C67_literal",
    "Avb.Defaults.C67_bin",
    "Avb.Defaults.C67_descriptor",
    "Avb.Defaults.C67_columns",
    "Avb.Defaults.C67_leak"
   ],
   "note": "C67_value, C67_edit_default, C67_leak: the shared defaults. C67_edit_own, C67_assign, C67_copy: what is not shared. C67_literal, C67_bin: when new objects have the literal defaults. Assigning the same list to two objects is left out."
  },
  {
   "property": "C68",
   "status": "proved",
   "theorems": [
    "Avb.C68_object",
    "Avb.C68_file",
    "Avb.Fast.C68_accelerated",
    "Avb.Fast.C68_accelerated_file"
   ],
   "note": "`size` (Spec/Size.lean) counts list elements, characters and bytes, whatever the class; numbers, references and identifiers have a fixed size per class and count nothing. Only what is kept is counted: the table of positions is allocated from the object count of the header before the chunks are looked at (file.py:172), and the payload buffer from the chunk size before it is read (file.py:281); both end in an exception if the file is shorter, after the allocation."
  },
  {
   "property": "C69",
   "status": "proved",
   "theorems": [
    "Avb.Fast.C69_object",
    "Avb.Fast.C69_order",
    "Avb.Fast.C69_negative",
    "Avb.Fast.C69_saves",
    "Avb.Fast.C69_negative_file"
   ],
   "note": "C69_object: what an accelerated reader gives can be written wherever the portable object can, with the same result after reading back. C69_saves: the whole file. C69_order: the order of references. C69_negative, C69_negative_file: negative values cannot be saved. Objects are assumed not to grow past 2^32 bytes by the outer NULs kept."
  },
  {
   "property": "C70",
   "status": "proved",
   "theorems": [
    "Avb.Layout.C70_opens",
    "Avb.Layout.C70_layout",
    "Avb.Layout.C70_timecode",
    "Avb.Layout.C70_descriptors"
   ],
   "note": "C70_opens: exactly which files open. C70_layout: the bytes of a saved file. C70_timecode, C70_descriptors: two records in which bytes are written that are not read."
  },
  {
   "property": "C71",
   "status": "proved",
   "theorems": [
    "Avb.Print.C71_prints",
    "Avb.Print.C71_raises",
    "Avb.Print.C71_endless",
    "Avb.Print.C71_depth",
    "Avb.Print.C71_local",
    "Avb.Print.C71_untyped",
    "Avb.Print.C71_class",
    "Avb.Print.C71_distinct",
    "Avb.Print.C71_clip",
    "Avb.Print.C71_composition",
    "Avb.Print.C71_parameter",
    "Avb.Print.C71_attributes",
    "Avb.Print.C71_list",
    "Avb.Print.C71_refused"
   ],
   "note": "C71_prints: exactly when printing succeeds. C71_raises, C71_endless, C71_untyped: what is raised. C71_depth, C71_local: what it depends on. C71_class, C71_distinct, C71_clip, C71_composition, C71_parameter, C71_attributes, C71_list: the texts. C71_refused: the message of a refused save. Formatting of floats, addresses and byte strings by Python is a parameter; helper objects without a class id are not modelled."
  },
  {
   "property": "C72",
   "status": "proved",
   "theorems": [
    "Avb.Params.C72_named",
    "Avb.Params.C72_unnamed",
    "Avb.Params.C72_tells",
    "Avb.Params.C72_type",
    "Avb.Params.C72_saved",
    "Avb.Params.C72_track",
    "Avb.Params.C72_found"
   ],
   "note": "the table is copied into the model; table facts by kernel evaluation over the whole table, lifted by lemmas"
  },
  {
   "property": "C73",
   "status": "proved",
   "theorems": [
    "Avb.Doubles.C73_nearest",
    "Avb.Doubles.C73_exact",
    "Avb.Doubles.C73_small",
    "Avb.Doubles.C73_overflow",
    "Avb.Doubles.C73_refused",
    "Avb.Doubles.C73_saved"
   ],
   "note": "C73_nearest against the value of a double by IEEE 754 (Spec/Doubles.lean); C73_exact, C73_small: exactness; C73_overflow, C73_refused: exactly which integers raise; C73_saved: through a save and reopen. Conversion of ints by struct.pack is modelled from CPython's PyLong_AsDouble."
  },
  {
   "property": "C74",
   "status": "proved",
   "theorems": [
    "Avb.C74_object",
    "Avb.C74_missing",
    "Avb.C74_new",
    "Avb.C74_classes",
    "Avb.C74_as_made",
    "Avb.C74_declared",
    "Avb.C74_save",
    "Avb.C74_save_raises",
    "Avb.C74_left"
   ],
   "note": "Model/Unset.lean: all writers again with every reading of a property marked; C74_object, C74_missing: exactly when an object is written; C74_new, C74_classes, C74_as_made: new objects; C74_declared: the lists name declared properties (C61); C74_save, C74_save_raises, C74_left: whole files and what a failed save leaves. Properties whose presence the writers test (hasattr) are optional values of the model, C42."
  },
  {
   "property": "C75",
   "status": "proved",
   "theorems": [
    "Avb.SharedIds.C75_change",
    "Avb.SharedIds.C75_shared",
    "Avb.SharedIds.C75_own",
    "Avb.SharedIds.C75_same",
    "Avb.SharedIds.C75_before",
    "Avb.SharedIds.C75_lost",
    "Avb.SharedIds.C75_twin",
    "Avb.SharedIds.C75_assigned"
   ],
   "note": "Lookups by an id object that is itself a changed key are not covered (CPython may find it by identity)."
  },
  {
   "property": "C76",
   "status": "proved",
   "theorems": [
    "Avb.FastWork.C76_look",
    "Avb.FastWork.C76_same_bytes",
    "Avb.FastWork.C76_save",
    "Avb.FastWork.C76_negative"
   ],
   "note": "Histories over addresses as in C51, the contents of unassigned objects those of Fast.readObject; C69 for unassigned and C51 for assigned objects."
  },
  {
   "property": "C77",
   "status": "proved",
   "theorems": [
    "Avb.C77_object",
    "Avb.C77_refused",
    "Avb.C77_not_integer",
    "Avb.C77_surrogates",
    "Avb.C77_exchange",
    "Avb.C77_truth",
    "Avb.C77_stored",
    "Avb.C77_stored_more",
    "Avb.C77_declared",
    "Avb.C77_read_back",
    "Avb.C77_save",
    "Avb.C77_open",
    "Avb.C77_save_fails",
    "Avb.C77_left"
   ],
   "note": "Values of a property that is passed as it is to a write function. Lists, data, ids, dates, parameter values and properties that are combined before writing have the values of the model. For files, the references among the values are those that are stored (HeapOK of the converted objects): an object in a boolean property would be saved as well."
  },
  {
   "property": "C78",
   "status": "proved",
   "theorems": [
    "Avb.C78_before",
    "Avb.C78_behind",
    "Avb.C78_between",
    "Avb.C78_saved"
   ],
   "note": "C78_before: opening at an offset, including failures. C78_behind: an object at its end. C78_between: bytes behind the file. C78_saved: with C12. The model of this property keeps explicit file positions and is compared with the one of the other properties."
  },
  {
   "property": "C79",
   "status": "proved",
   "theorems": [
    "Avb.C79_little",
    "Avb.C79_big",
    "Avb.C79_injective",
    "Avb.C79_here"
   ],
   "note": "C79_little, C79_big (with the exact condition), C79_injective, C79_here. The dump of the header chunk is not the subject (it is data with a made-up header)."
  },
  {
   "property": "C80",
   "status": "proved",
   "theorems": [
    "Avb.Raw.C80_agrees",
    "Avb.Raw.C80_data1_refused",
    "Avb.Raw.C80_data2_refused",
    "Avb.Raw.C80_data3_refused",
    "Avb.Raw.C80_byte_refused",
    "Avb.Raw.C80_count_refused",
    "Avb.Raw.C80_values_refused",
    "Avb.Raw.C80_from_dict",
    "Avb.Raw.C80_written",
    "Avb.Raw.C80_urn",
    "Avb.Raw.C80_to_dict",
    "Avb.Raw.C80_short_dict",
    "Avb.Raw.C80_numbers",
    "Avb.Raw.C80_order",
    "Avb.Raw.C80_make",
    "Avb.Raw.C80_size",
    "Avb.Raw.C80_mended"
   ],
   "note": "Model/RawID has the id as a byte array with the state an exception leaves behind; compared with Model/MobID on 32 bytes, by cases on the size elsewhere. The behaviour of struct.pack_into on a bad value is that of CPython."
  },
  {
   "property": "C81",
   "status": "proved",
   "theorems": [
    "Avb.Nested.C81_length",
    "Avb.Nested.C81_more",
    "Avb.Nested.C81_succeeds",
    "Avb.Nested.C81_cycle",
    "Avb.Nested.C81_ends",
    "Avb.Nested.C81_file",
    "Avb.Nested.C81_flatten",
    "Avb.Nested.C81_positions",
    "Avb.Nested.C81_prefix",
    "Avb.Nested.C81_length_raises",
    "Avb.Nested.C81_nearest",
    "Avb.Nested.C81_component",
    "Avb.Nested.C81_before"
   ],
   "note": "Components that are not a sequence have the length that their class reads from the file. `C81_length`, `C81_succeeds` and `C81_cycle` speak of any number of nested calls; `C81_file` bounds the number needed."
  },
  {
   "property": "C82",
   "status": "proved",
   "theorems": [
    "Avb.FileDeps.C82_cause",
    "Avb.FileDeps.C82_any_time",
    "Avb.FileDeps.C82_ends",
    "Avb.FileDeps.C82_all",
    "Avb.FileDeps.C82_raises",
    "Avb.FileDeps.C82_no_bin",
    "Avb.FileDeps.C82_unsearchable"
   ],
   "note": "Model/FileDeps joins walk_references (Model/File), the lookup in the bin and the loop of C32 over the same objects; C32 is used for the part without exceptions."
  },
  {
   "property": "C83",
   "status": "proved",
   "theorems": [
    "Avb.IterEdit.C83_next",
    "Avb.IterEdit.C83_ended",
    "Avb.IterEdit.C83_list",
    "Avb.IterEdit.C83_added",
    "Avb.IterEdit.C83_terminates",
    "Avb.IterEdit.C83_endless",
    "Avb.IterEdit.C83_same",
    "Avb.IterEdit.C83_pop",
    "Avb.IterEdit.C83_remove",
    "Avb.IterEdit.C83_remove_refs",
    "Avb.IterEdit.C83_replace",
    "Avb.IterEdit.C83_quiet",
    "Avb.IterEdit.C83_unloadable",
    "Avb.IterEdit.C83_mobs",
    "Avb.IterEdit.C83_mobs_raises",
    "Avb.IterEdit.C83_mobs_quiet"
   ],
   "note": "The iterator of Python's list is a position that is compared with the present length. `C83_next`, `C83_ended`: what an iterator gives after any history; `C83_list`: it changes nothing; `C83_added`: lists that only grow; `C83_terminates`, `C83_endless`, `C83_same`: which loops end; `C83_replace`, `C83_quiet`: safe loops; `C83_pop`, `C83_remove`, `C83_remove_refs`: loops that skip or raise; `C83_mobs`, `C83_mobs_quiet`: bins. `C83_unloadable`, `C83_mobs_raises`: loops over lists with an object that cannot be loaded."
  },
  {
   "property": "C84",
   "status": "proved",
   "theorems": [
    "Avb.WalkEdit.C84_unseen",
    "Avb.WalkEdit.C84_yielded",
    "Avb.WalkEdit.C84_assigned",
    "Avb.WalkEdit.C84_last",
    "Avb.WalkEdit.C84_raises",
    "Avb.WalkEdit.C84_walk",
    "Avb.WalkEdit.C84_ends",
    "Avb.WalkEdit.C84_cycle",
    "Avb.WalkEdit.C84_quiet",
    "Avb.WalkEdit.C84_once"
   ],
   "note": "The generators are a stack of loops; Python's iterators of dictionaries and lists are modelled by positions. `C84_walk`, `C84_ends`: the walk with nothing changed and when it ends; `C84_cycle`: never on a cycle; `C84_quiet`: no exception without changes; `C84_unseen`: locality, for any two states of the objects; `C84_yielded`, `C84_assigned`, `C84_last`: changes without effect; `C84_once`: the same in terms of what would be yielded; `C84_raises`: added or deleted properties on the way. All objects can be loaded in this model; what a plain dictionary does after as many keys were added as deleted is left open."
  },
  {
   "property": "C85",
   "status": "proved",
   "theorems": [
    "Avb.PosEdit.C85_positions",
    "Avb.PosEdit.C85_ends",
    "Avb.PosEdit.C85_raises",
    "Avb.PosEdit.C85_late",
    "Avb.PosEdit.C85_ended",
    "Avb.PosEdit.C85_ripple",
    "Avb.PosEdit.C85_complete",
    "Avb.PosEdit.C85_transition"
   ],
   "note": "`C85_positions`: closed form for any history; `C85_ends`, `C85_raises`, `C85_late`, `C85_ended`: how it ends; `C85_ripple`: loops that set lengths; `C85_complete`: a loop that ends was given all components; `C85_transition`: lengths of transitions set too late. All references can be loaded in this model."
  },
  {
   "property": "C86",
   "status": "proved",
   "theorems": [
    "Avb.PropGet.C86_attr",
    "Avb.PropGet.C86_missing",
    "Avb.PropGet.C86_hasattr",
    "Avb.PropGet.C86_get",
    "Avb.PropGet.C86_get_raises",
    "Avb.PropGet.C86_get_default",
    "Avb.PropGet.C86_agree",
    "Avb.PropGet.C86_differ",
    "Avb.PropGet.C86_items"
   ],
   "note": "`C86_attr`, `C86_missing`, `C86_hasattr`: single properties; `C86_get`, `C86_get_raises`, `C86_get_default`, `C86_agree`, `C86_differ`: `obj.get`; `C86_items`: the generator. The ids looked up are part of each result."
  },
  {
   "property": "C87",
   "status": "proved",
   "theorems": [
    "Avb.C87_ref",
    "Avb.C87_same",
    "Avb.C87_loads",
    "Avb.C87_refused",
    "Avb.C87_anywhere",
    "Avb.C87_class_id",
    "Avb.C87_dangling",
    "Avb.C87_once",
    "Avb.C87_hidden",
    "Avb.C87_save_fails",
    "Avb.C87_save_same"
   ],
   "note": "`C87_ref`: a table of 2 ^ 32 entries stands for no check. `C87_same`, `C87_loads`, `C87_refused`: loading with and without; `C87_anywhere`: data that a file of any size reads are loaded without the check in every file; `C87_hidden`: the converse fails (witness); `C87_once`: the cache; `C87_save_fails`, `C87_save_same`: saving; `C87_dangling`, `C87_class_id`. Portable readers; in `C87_dangling` the objects loaded before are loaded with the check."
  }
 ]
}