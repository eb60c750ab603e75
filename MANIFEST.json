{
 "claims": [
  {
   "property": "C01",
   "status": "proved",
   "theorems": [
    "Verif.Auid.C01_bytes_be",
    "Verif.Auid.C01_bytes_be_spec",
    "Verif.Auid.C01_int",
    "Verif.Auid.C01_ofInt",
    "Verif.Auid.C01_hex",
    "Verif.Auid.C01_hex_refused",
    "Verif.Auid.C01_repr",
    "Verif.Auid.C01_repr_prefix",
    "Verif.Auid.C01_hex_blank_counterexample"
   ],
   "note": "Also shown: a 32 character text with blanks is accepted and gives 15 bytes."
  },
  {
   "property": "C02",
   "status": "proved",
   "theorems": [
    "Verif.Auid.C02_auid_eq",
    "Verif.Auid.C02_auid_order",
    "Verif.Auid.C02_auid_lex",
    "Verif.MobID.C02_mobid_eq",
    "Verif.MobID.C02_mobid_order"
   ],
   "note": ""
  },
  {
   "property": "C03",
   "status": "proved",
   "theorems": [
    "Verif.MobID.C03_int",
    "Verif.MobID.C03_int_truncates",
    "Verif.MobID.C03_fields_determine",
    "Verif.MobID.C03_dict",
    "Verif.MobID.C03_dict_fields",
    "Verif.MobID.C03_set_get",
    "Verif.MobID.C03_set_refused",
    "Verif.MobID.C03_material",
    "Verif.MobID.C03_new"
   ],
   "note": ""
  },
  {
   "property": "C04",
   "status": "partial",
   "theorems": [
    "Verif.MobID.C04_urn_iff",
    "Verif.MobID.C04_urn_partial",
    "Verif.MobID.C04_urn_new",
    "Verif.MobID.C04_refused",
    "Verif.MobID.C04_urn_counterexample"
   ],
   "note": "The full round trip is false; the failing set is characterised exactly."
  },
  {
   "property": "C05",
   "status": "proved",
   "theorems": [
    "Verif.Utf16.C05_encode_ok_iff",
    "Verif.Utf16.C05_string",
    "Verif.Utf16.C05_injective",
    "Verif.Utf16.C05_string_array",
    "Verif.Utf16.C05_string_array_counterexample"
   ],
   "note": ""
  },
  {
   "property": "C06",
   "status": "proved",
   "theorems": [
    "Verif.Types.C06_int_roundtrip",
    "Verif.Types.C06_int_surjective",
    "Verif.Types.C06_int_bad_size"
   ],
   "note": ""
  },
  {
   "property": "C07",
   "status": "proved",
   "theorems": [
    "Verif.Enum.C07_enum_history",
    "Verif.Enum.C07_enum_order",
    "Verif.Enum.C07_enum_value",
    "Verif.Enum.C07_ext_history",
    "Verif.Enum.C07_ext_value",
    "Verif.Enum.C07_enum_corrupt_counterexample"
   ],
   "note": "Registrations with a code outside 64 bits raise and leave the table unreadable (counterexample)."
  },
  {
   "property": "C08",
   "status": "partial",
   "theorems": [
    "Verif.Types.C09_roundtrip",
    "Verif.Types.C08_var_int",
    "Verif.Types.C08_fixed_refused",
    "Verif.Types.C08_fixed_int",
    "Verif.Types.C08_fixed_array_counterexample",
    "Verif.Types.C08_string_array_refused"
   ],
   "note": "Variable arrays and sets are proved; for fixed size integer arrays the property is false of the code and the exact behaviour is proved."
  },
  {
   "property": "C09",
   "status": "proved",
   "theorems": [
    "Verif.Types.C09_roundtrip"
   ],
   "note": "Nesting through a fixed size array is excluded by the width condition; see C08_fixed_array_counterexample."
  },
  {
   "property": "C10",
   "status": "proved",
   "theorems": [
    "Verif.Types.C10_rational",
    "Verif.Types.C10_rational_decode"
   ],
   "note": "Integer and rational arguments; float, Decimal and text arguments are not modelled."
  },
  {
   "property": "C11",
   "status": "proved",
   "theorems": [
    "Verif.Types.C11_indirect",
    "Verif.Types.C11_indirect_default"
   ],
   "note": ""
  },
  {
   "property": "C12",
   "status": "proved",
   "theorems": [
    "Verif.PropStream.C12_roundtrip",
    "Verif.PropStream.C12_refused"
   ],
   "note": ""
  },
  {
   "property": "C13",
   "status": "proved",
   "theorems": [
    "Verif.PropStream.C13_roundtrip",
    "Verif.PropStream.C13_zero_counterexample",
    "Verif.PropStream.C13_indices"
   ],
   "note": ""
  },
  {
   "property": "C14",
   "status": "proved",
   "theorems": [
    "Verif.PropStream.C14_vector",
    "Verif.PropStream.C14_set",
    "Verif.PropStream.C14_weak_array",
    "Verif.PropStream.C14_weak_ref"
   ],
   "note": ""
  },
  {
   "property": "C15",
   "status": "proved",
   "theorems": [
    "Verif.Names.C15_length",
    "Verif.Names.C15_no_collision",
    "Verif.Names.C15_no_collision_upper",
    "Verif.Names.C15_fits",
    "Verif.Names.C15_astral_counterexample"
   ],
   "note": "Fitting 31 UTF-16 units needs property names in the basic plane; shown by counterexample."
  },
  {
   "property": "C16",
   "status": "proved",
   "theorems": [
    "Verif.Lru.C16_get",
    "Verif.Lru.C16_evict",
    "Verif.Lru.C16_capacity",
    "Verif.Lru.C16_capacity_attained"
   ],
   "note": "A cache of size n holds up to n+1 entries."
  },
  {
   "property": "C17",
   "status": "proved",
   "theorems": [
    "Verif.Chain.C17_terminates",
    "Verif.Chain.C17_bound",
    "Verif.Chain.C17_outcome",
    "Verif.Chain.C17_chain",
    "Verif.Chain.C17_nodup",
    "Verif.Chain.C17_cycle",
    "Verif.Chain.C17_broken"
   ],
   "note": ""
  },
  {
   "property": "C18",
   "status": "proved",
   "theorems": [
    "Verif.Fat.C18_one_use_per_sector",
    "Verif.Fat.C18_one_use_per_mini_sector",
    "Verif.Fat.C18_free_lists",
    "Verif.Fat.C18_allocated_was_free",
    "Verif.Fat.C18_freed_available"
   ],
   "note": "For files created new; one Stream object per entry."
  },
  {
   "property": "C19",
   "status": "proved",
   "theorems": [
    "Verif.Fat.C19_range_lock_offsets",
    "Verif.Fat.C19_range_lock_never_used"
   ],
   "note": "For files created new."
  },
  {
   "property": "C20",
   "status": "proved",
   "theorems": [
    "Verif.Fat.C20_fat_and_difat"
   ],
   "note": "For files created new."
  },
  {
   "property": "C21",
   "status": "proved",
   "theorems": [
    "Verif.Fat.C21_streams_are_byte_arrays",
    "Verif.Fat.C21_read_back",
    "Verif.Fat.C21_truncate_grow_counterexample"
   ],
   "note": "truncate to a larger size does not zero-fill: shown."
  },
  {
   "property": "C22",
   "status": "proved",
   "theorems": [
    "Verif.Fat.C22_streams_independent",
    "Verif.Fat.C22_two_handles_counterexample"
   ],
   "note": "One Stream object per entry; two on one entry can read foreign data: shown."
  },
  {
   "property": "C23",
   "status": "proved",
   "theorems": [
    "Verif.Fat.C23_cache_coherent",
    "Verif.Fat.C23_clear_counterexample"
   ],
   "note": "write_dir_entries (only called by close) leaves a stale sector: shown."
  },
  {
   "property": "C25",
   "status": "proved",
   "theorems": [
    "Verif.Rb.create_all",
    "Verif.Rb.create_never_fails"
   ],
   "note": "Balance is stated as the number of comparisons another reader needs: at most 2*log2(n+1)."
  },
  {
   "property": "C26",
   "status": "partial",
   "theorems": [
    "Verif.Rb.history_exact_partial",
    "Verif.Rb.remove_ok",
    "Verif.Rb.create_after_remove_partial",
    "Verif.Rb.create_after_remove_counterexample"
   ],
   "note": "Removal always succeeds and is exact. False in general: after removals a creation can raise TypeError (cfb.py line 912 takes the wrong sibling)."
  },
  {
   "property": "C37",
   "status": "partial",
   "theorems": [
    "Verif.Slots.C37_auto_id",
    "Verif.Slots.C37_fresh_partial",
    "Verif.Slots.C37_history_partial",
    "Verif.Slots.C37_explicit",
    "Verif.Slots.C37_collision_iff",
    "Verif.Slots.C37_gap_counterexample"
   ],
   "note": "False when existing ids have a gap (shown); proved for slots numbered without gaps, and the exact condition for a collision is proved."
  },
  {
   "property": "C38",
   "status": "partial",
   "theorems": [
    "Verif.Sequence.C38_positions",
    "Verif.Sequence.C38_positions_length",
    "Verif.Sequence.C38_length",
    "Verif.Sequence.C38_start",
    "Verif.Sequence.C38_index_partial",
    "Verif.Sequence.C38_segments",
    "Verif.Sequence.C38_nested_counterexample",
    "Verif.Sequence.C38_cut_counterexample"
   ],
   "note": "Positions proved for all sequences; lookup by time proved away from exact straight cuts, where it returns the previous component (shown). A nested scope counts as length 0 (shown)."
  },
  {
   "property": "C39",
   "status": "partial",
   "theorems": [
    "Verif.Keyframes.C39_nearest",
    "Verif.Keyframes.C39_history_partial",
    "Verif.Keyframes.C39_before_first",
    "Verif.Keyframes.C39_order_counterexample"
   ],
   "note": "Proved for histories in which no time is before the first keyframe; otherwise the order breaks (shown). Times are exact rationals in the model."
  },
  {
   "property": "C40",
   "status": "proved",
   "theorems": [
    "Verif.Deps.C40_dependant_mobs",
    "Verif.Deps.C40_cycle_never_ends",
    "Verif.Deps.C40_cycle_counterexample"
   ],
   "note": "For every finite acyclic graph; that a cycle never ends is proved too."
  },
  {
   "property": "C41",
   "status": "proved",
   "theorems": [
    "Verif.Dnx.C41_frames",
    "Verif.Dnx.C41_prefix",
    "Verif.Dnx.C41_pieces",
    "Verif.Dnx.C41_size",
    "Verif.Dnx.C41_cut_off"
   ],
   "note": "Terminates by construction (total function, well-founded recursion on the remaining bytes)."
  },
  {
   "property": "C35",
   "status": "partial",
   "theorems": [
    "Verif.Pids.C35_alloc",
    "Verif.Pids.C35_stable",
    "Verif.Pids.C35_history_partial",
    "Verif.Pids.C35_new_file",
    "Verif.Pids.C35_open",
    "Verif.Pids.C35_builtin",
    "Verif.Pids.C35_opened_partial",
    "Verif.Pids.C35_exhausted_counterexample",
    "Verif.Pids.C35_after_raise_counterexample",
    "Verif.Pids.C35_explicit_counterexample",
    "Verif.Pids.C35_opened_explicit_counterexample"
   ],
   "note": "Proved for up to 32768 dynamic ids and no explicitly chosen ids; false beyond (shown)."
  },
  {
   "property": "C36",
   "status": "proved",
   "theorems": [
    "Verif.ClassTree.C36_exact",
    "Verif.ClassTree.C36_partial_order",
    "Verif.ClassTree.C36_lookup",
    "Verif.ClassTree.C36_register",
    "Verif.ClassTree.C36_built",
    "Verif.ClassTree.C36_cycle_never_ends",
    "Verif.ClassTree.C36_cycle_counterexample",
    "Verif.ClassTree.C36_key_size_counterexample"
   ],
   "note": "For class tables without cycles, which registration of known parents guarantees; unique_key_size and unique_key_pid test inheritance the wrong way round (shown)."
  },
  {
   "property": "C42",
   "status": "proved",
   "theorems": [
    "Verif.Klv.C42_ber",
    "Verif.Klv.C42_iter",
    "Verif.Klv.C42_values",
    "Verif.Klv.C42_independent",
    "Verif.Klv.C42_sound",
    "Verif.Klv.C42_tags",
    "Verif.Klv.C42_primer",
    "Verif.Klv.C42_kag_counterexample"
   ],
   "note": "round_to_kag does not round to the grid (shown)."
  },
  {
   "property": "C43",
   "status": "proved",
   "theorems": [
    "Verif.Wave.C43_wave",
    "Verif.Wave.C43_aiff",
    "Verif.Wave.C43_prefix_counterexample"
   ],
   "note": "Terminates by construction. Any chunk id beginning with fmt is accepted (shown)."
  },
  {
   "property": "C44",
   "status": "proved",
   "theorems": [
    "Verif.Tagged.C44_lookup",
    "Verif.Tagged.C44_items",
    "Verif.Tagged.C44_set",
    "Verif.Tagged.C44_history",
    "Verif.Tagged.C44_refused",
    "Verif.Tagged.C44_refused_counterexample",
    "Verif.Tagged.C44_nul_counterexample",
    "Verif.Tagged.C44_append_counterexample"
   ],
   "note": "For names without U+0000 and lone surrogates; shown to fail otherwise."
  },
  {
   "property": "C24",
   "status": "proved",
   "theorems": [
    "Verif.DirEntry.C24_layout",
    "Verif.DirEntry.C24_get",
    "Verif.DirEntry.C24_set_numbers",
    "Verif.DirEntry.C24_set_class_color_type",
    "Verif.DirEntry.C24_name_get",
    "Verif.DirEntry.C24_name_set",
    "Verif.DirEntry.C24_name_refused",
    "Verif.DirEntry.C24_mtime_counterexample",
    "Verif.DirEntry.C24_fresh"
   ],
   "note": "Setting the modify time always raises (shown)."
  },
  {
   "property": "C29",
   "status": "proved",
   "theorems": [
    "Verif.Fat.C29_round_trip",
    "Verif.Fat.C29_refused"
   ],
   "note": "the header written over any file occupies exactly its first sector in the layout of the format and is read back as the same values; whatever is accepted has the magic number, little-endian byte order and supported sector sizes. Remark: files with 512-byte sectors are written with major version 4"
  },
  {
   "property": "C28",
   "status": "proved",
   "theorems": [
    "Verif.Fat.C28_sessions",
    "Verif.Fat.C28_close_open",
    "Verif.Fat.C28_read_back"
   ],
   "note": "For files created new, closed and opened any number of times. The FAT is the same except for unused sectors at the end of the mini stream, which close frees."
  },
  {
   "property": "C30",
   "status": "proved",
   "theorems": [
    "Verif.Fat.C30_new_id",
    "Verif.Fat.C30_slots"
   ],
   "note": "For files created new, closed and opened any number of times."
  },
  {
   "property": "C27",
   "status": "partial",
   "theorems": [
    "Verif.Tree.tree_history_partial",
    "Verif.Tree.tree_growing_partial",
    "Verif.Tree.tree_identity",
    "Verif.Tree.path_of_entry",
    "Verif.Tree.case_twins_counterexample",
    "Verif.Tree.move_into_itself_counterexample",
    "Verif.Tree.move_long_name_counterexample",
    "Verif.Tree.rmtree_root_counterexample",
    "Verif.Tree.double_slash_counterexample",
    "Verif.Tree.trailing_slash_counterexample",
    "Verif.Tree.exists_raises_counterexample",
    "Verif.Tree.path_root_name_counterexample"
   ],
   "note": "Any history from a new file with plain path components acts as on a map of paths up to the first call of a described kind (new name equal to another up to case, move into itself or to a too long name or deeper than 250, rmtree of the root) or whose tree insertion raises (C26); these are shown to fail."
  },
  {
   "property": "C46",
   "status": "partial",
   "theorems": [
    "Verif.Tree.walk_once",
    "Verif.Tree.rmtree_frees_partial",
    "Verif.Tree.rmtree_root_counterexample"
   ],
   "note": "walk in full for every state that a history of C27 reaches; for rmtree the entry ids and the tree; that no sector is lost is C48_sectors_partial. Partial as C27 is."
  },
  {
   "property": "C31",
   "status": "proved",
   "theorems": [
    "Verif.Graph.C31_file_untouched",
    "Verif.Graph.C31_changes_refused",
    "Verif.Graph.C31_refused_unchanged",
    "Verif.Graph.C31_delete_raises",
    "Verif.Graph.C31_values_stay",
    "Verif.Graph.C31_delete_counterexample",
    "Verif.Modes.C31_modes",
    "Verif.Modes.C31_mode_meaning",
    "Verif.Modes.C31_memory"
   ],
   "note": "Objects and reference properties; the container itself is C18-C28. del obj[name] raises but has removed the property in memory (shown)."
  },
  {
   "property": "C32",
   "status": "partial",
   "theorems": [
    "Verif.Graph.C32_programs_partial",
    "Verif.Graph.C32_read",
    "Verif.Graph.C32_extend",
    "Verif.Graph.C32_setitem",
    "Verif.Graph.C32_pop",
    "Verif.Graph.C32_beyond",
    "Verif.Graph.C32_insert",
    "Verif.Graph.C32_clear",
    "Verif.Graph.C32_assign",
    "Verif.Graph.C32_others",
    "Verif.Graph.C32_own_storage",
    "Verif.Graph.C32_storage_below",
    "Verif.Graph.C32_fresh",
    "Verif.Graph.C32_witness",
    "Verif.Graph.C32_index_counterexample",
    "Verif.Graph.C32_insert_counterexample",
    "Verif.Graph.C32_insert_beyond_counterexample",
    "Verif.Graph.C32_insert_absent_counterexample",
    "Verif.Graph.C32_twice_counterexample"
   ],
   "note": "Every program up to the first call to which the specification gives no meaning; the calls left out are shown to be wrong: insert at a negative index, beyond the end or into an absent list, an index below -len, one object twice in extend."
  },
  {
   "property": "C33",
   "status": "partial",
   "theorems": [
    "Verif.Graph.C33_read",
    "Verif.Graph.C33_keys",
    "Verif.Graph.C33_append",
    "Verif.Graph.C33_replace",
    "Verif.Graph.C33_pop",
    "Verif.Graph.C33_clear",
    "Verif.Graph.C33_rekey_partial",
    "Verif.Graph.C33_rekey_counterexample",
    "Verif.Graph.C33_detached_counterexample",
    "Verif.Graph.C33_shadow_counterexample"
   ],
   "note": "Changing a key onto an existing key drops an object, the member of a detached set is misfiled, and a replaced object that is read again can share a storage: shown."
  },
  {
   "property": "C34",
   "status": "partial",
   "theorems": [
    "Verif.Graph.C34_one_owner_partial",
    "Verif.Graph.C34_seen",
    "Verif.Graph.C34_extend_refused",
    "Verif.Graph.C34_set_refused",
    "Verif.Graph.C34_setitem_refused",
    "Verif.Graph.C34_shared_counterexample",
    "Verif.Graph.C34_raised_counterexample",
    "Verif.Graph.C34_insert_counterexample",
    "Verif.Graph.C34_detached_counterexample",
    "Verif.Graph.C34_assign_counterexample",
    "Verif.Graph.C34_dropped_counterexample",
    "Verif.Graph.C34_shadow_counterexample"
   ],
   "note": "False in general (shown in seven ways); proved for programs that put objects only where they are not attached already; refusal in full for extend, append and item assignment."
  },
  {
   "property": "C45",
   "status": "partial",
   "theorems": [
    "Verif.Graph.C45_abort_partial",
    "Verif.Graph.C45_close",
    "Verif.Graph.C45_unsaved",
    "Verif.Graph.C45_class_counterexample"
   ],
   "note": "Objects only: after a failed block the file has what was saved, except that class ids are written at once (shown). That the container closes consistently is C28."
  },
  {
   "property": "C47",
   "status": "partial",
   "theorems": [
    "Verif.Graph.C47_copy_partial",
    "Verif.Graph.C47_programs_partial",
    "Verif.Graph.C47_full_new",
    "Verif.Graph.C47_full_call",
    "Verif.Graph.C47_witness",
    "Verif.Graph.C47_gap_counterexample",
    "Verif.Graph.C47_other_file_partial",
    "Verif.Graph.C47_other_file_injective",
    "Verif.Graph.C47_other_file_witness",
    "Verif.Graph.C47_names_counterexample",
    "Verif.IndexName.C47_index_named",
    "Verif.IndexName.C47_index_other",
    "Verif.IndexName.C47_index_set",
    "Verif.IndexName.C47_index_vector",
    "Verif.IndexName.C47_empty_set_counterexample",
    "Verif.IndexName.C47_empty_vector",
    "Verif.IndexName.C47_empty_vector_counterexample",
    "Verif.IndexName.C47_foreign_vector_counterexample"
   ],
   "note": "Copies within a file and into another file. Within a file, after a pop from a vector its owner cannot be copied (shown); into another file, distinct names there are assumed, and one property is lost otherwise (shown). Index names are in C47_index_*: which copies can be written and read again, exactly; empty sets and vectors can not (shown). Weak references and streams are missing."
  },
  {
   "property": "C48",
   "status": "partial",
   "theorems": [
    "Verif.Volume.C48_history_partial",
    "Verif.Volume.C48_growing_history",
    "Verif.Volume.growDemo_ok",
    "Verif.Volume.growDemo_run",
    "Verif.Volume.C48_read_partial",
    "Verif.Volume.C48_sectors_partial",
    "Verif.Volume.C48_io_others",
    "Verif.Volume.C48_move_bytes",
    "Verif.Volume.C48_remove_bytes",
    "Verif.Volume.C48_rmtree_bytes",
    "Verif.Volume.C48_create_bytes",
    "Verif.Volume.C48_reopen_same",
    "Verif.Volume.demo_proper",
    "Verif.Volume.demo_run",
    "Verif.Volume.open_unknown_mode_creates",
    "Verif.Volume.long_name_leaves_record_counterexample"
   ],
   "note": "Every history up to the first call that C27 leaves out, a name longer than a record (shown to leave a record behind), or an insertion that raises (C26); C48_growing_history: without remove, rmtree and move no insertion raises. Names without U+0000; one Stream object per entry; files made new."
  },
  {
   "property": "C49",
   "status": "proved",
   "theorems": [
    "Verif.Store.C49_history",
    "Verif.Store.C49_object",
    "Verif.Store.C49_stream",
    "Verif.Store.C49_class",
    "Verif.Store.C49_failed_save",
    "Verif.Store.demo_ok",
    "Verif.Store.demo_ops",
    "Verif.Store.demo_run",
    "Verif.Store.dNames_ok",
    "Verif.Store.bad_demo",
    "Verif.Store.C49_first_save_counterexample",
    "Verif.Store.C49_slash_counterexample"
   ],
   "note": "Files made new. Property names without / and U+0000, in the basic plane. The first save of an object, if it fails, leaves an unreadable stream (shown)."
  },
  {
   "property": "C50",
   "status": "proved",
   "theorems": [
    "Verif.Store.C50_every_program",
    "Verif.Store.C50_tree",
    "Verif.Store.C50_close",
    "Verif.Store.C50_programs",
    "Verif.Store.C50_determines",
    "Verif.Store.dCoding_ok",
    "Verif.Store.dProgram_fits",
    "Verif.Store.dSmall_ops",
    "Verif.Store.dSmall_describes",
    "Verif.Store.dSmall_fits",
    "Verif.Store.dSmall_walk"
   ],
   "note": "Files made new; values, strong references, keys and classes (no weak references and streams in programs). C50_every_program is for all programs; the tree theorems are for programs up to the first call that C32 leaves unspecified. After leaving by an exception classes may differ (C45)."
  },
  {
   "property": "C51",
   "status": "partial",
   "theorems": [
    "Verif.Compound.C51_read",
    "Verif.Compound.C51_history_partial",
    "Verif.Compound.C51_unique",
    "Verif.Compound.C51_witness",
    "Verif.Compound.C51_browse",
    "Verif.Compound.C51_read_only",
    "Verif.Compound.C51_shown_unique",
    "Verif.Compound.C51_mark",
    "Verif.Compound.C51_mark_witness",
    "Verif.Compound.C51_empty_counterexample",
    "Verif.Compound.C51_root_counterexample"
   ],
   "note": "Reading is shown for files with either mark for a start sector that is not there (C51_browse, C51_read_only). Editing is shown for 0xFFFFFFFF; with 0xFFFFFFFE, which the format asks for, writing to an empty stream loses data and closing can raise (shown). Histories up to the calls that C48 leaves out."
  },
  {
   "property": "C52",
   "status": "partial",
   "theorems": [
    "Verif.Compound.C52_close_partial",
    "Verif.Compound.C52_edit_partial",
    "Verif.Compound.C52_open_close",
    "Verif.Compound.C52_red_black",
    "Verif.Compound.C52_edit_red_black",
    "Verif.Compound.C52_witness"
   ],
   "note": "Histories up to the first call that C48 leaves out; red-black trees for histories without remove, rmtree and move (false otherwise, C26). Where the code departs from the format is listed in DESIGN.md."
  },
  {
   "property": "C53",
   "status": "partial",
   "theorems": [
    "Verif.Weak.C53_programs_partial",
    "Verif.Weak.C53_read",
    "Verif.Weak.C53_assign",
    "Verif.Weak.C53_items",
    "Verif.Weak.C53_reopen",
    "Verif.Weak.C53_abort",
    "Verif.Weak.C53_others",
    "Verif.Weak.C53_keypid",
    "Verif.Weak.C53_defs_sound",
    "Verif.Weak.C53_witness",
    "Verif.Weak.C53_unset_counterexample",
    "Verif.Weak.C53_absent_counterexample",
    "Verif.Weak.C53_rekey_counterexample",
    "Verif.Weak.C53_copy_counterexample"
   ],
   "note": "Programs are followed up to the first call about which nothing is said (those that C32 leaves out, paths that do not end in a set, keys of another size). References to class and type definitions and copies into another file are not modelled. Where the code differs is shown."
  },
  {
   "property": "C54",
   "status": "partial",
   "theorems": [
    "Verif.Meta.C54_programs_partial",
    "Verif.Meta.C54_answers",
    "Verif.Meta.C54_set_get_partial",
    "Verif.Meta.C54_others_partial",
    "Verif.Meta.C54_good_new",
    "Verif.Meta.C54_foreign_partial",
    "Verif.Meta.C54_foreign_read",
    "Verif.Meta.C54_codec_sound",
    "Verif.Meta.C54_witness_runs",
    "Verif.Meta.C54_witness",
    "Verif.Meta.C54_file_fits",
    "Verif.Meta.C54_foreign_witness",
    "Verif.Meta.C54_read_witness",
    "Verif.Meta.C54_objs_rel",
    "Verif.Meta.C54_foreign_run",
    "Verif.Meta.C54_renumber_counterexample",
    "Verif.Meta.C54_root_counterexample",
    "Verif.Meta.C54_alias_counterexample",
    "Verif.Meta.C54_rename_counterexample"
   ],
   "note": "Programs are followed up to the first call about which nothing is said (other names of built-in classes, the class of the root object, pids given by the caller, equal names of inherited properties). Type definitions with dynamic pids are not modelled. Where the code differs is shown."
  },
  {
   "property": "C55",
   "status": "partial",
   "theorems": [
    "Verif.Meta.C55_programs_partial",
    "Verif.Meta.C55_answers",
    "Verif.Meta.C55_copy_get_partial",
    "Verif.Meta.C55_witness_says",
    "Verif.Meta.C55_witness",
    "Verif.Meta.C55_witness_numbers",
    "Verif.Meta.C55_base_counterexample",
    "Verif.Meta.C55_name_counterexample",
    "Verif.Meta.C55_fixed_counterexample"
   ],
   "note": "New files; programs are followed up to the first call about which nothing is said (those of C54, classes with the name of another class or another parent in the other file, properties with another name or type there, numbers used up). References, streams and type definitions are not modelled in copies. Where the code differs is shown."
  },
  {
   "property": "C56",
   "status": "partial",
   "theorems": [
    "Verif.TDict.C56_kept_partial",
    "Verif.TDict.C56_comes_partial",
    "Verif.TDict.C56_library",
    "Verif.TDict.C56_witness",
    "Verif.TDict.C56_name_counterexample",
    "Verif.TDict.C56_record_counterexample",
    "Verif.TDict.C56_later_counterexample",
    "Verif.TDict.C56_set_counterexample",
    "Verif.TDict.C56_weak_counterexample",
    "Verif.TDict.C56_tree_counterexample",
    "Verif.TDict.C56_tree_new",
    "Verif.TDict.C56_array_counterexample",
    "Verif.TDict.C56_value_counterexample",
    "Verif.TDict.library_registered"
   ],
   "note": "C56_comes_partial needs that members of records are types the target finds by name, that no set or reference type is new, and that known types have the same components (Fit); C56_kept_partial is for types whose record members the file finds by name. Where the code differs is shown."
  },
  {
   "property": "C57",
   "status": "partial",
   "theorems": [
    "Verif.Walk.C57_walk_partial",
    "Verif.Walk.C57_create_partial",
    "Verif.Walk.C57_create_length",
    "Verif.Walk.C57_ends",
    "Verif.Walk.C57_cycle_counterexample",
    "Verif.Walk.C57_witness",
    "Verif.Walk.C57_ends_witness",
    "Verif.Walk.C57_filler_counterexample",
    "Verif.Walk.C57_slot_counterexample",
    "Verif.Walk.C57_offset_counterexample",
    "Verif.Walk.C57_zero_counterexample",
    "Verif.Walk.C57_other"
   ],
   "note": "C57_walk_partial needs what walk needs (Simple: no cuts, only clips inside sequences, no sequence after a clip met inside); one edit rate and origin 0. C57_create_partial is for a clip to the end of the slot. Where the code differs is shown."
  },
  {
   "property": "C58",
   "status": "proved",
   "theorems": [
    "Verif.Defs.C58_name",
    "Verif.Defs.C58_unknown",
    "Verif.Defs.C58_auid",
    "Verif.Defs.C58_register",
    "Verif.Defs.C58_library",
    "Verif.Defs.C58_witness",
    "Verif.Defs.C58_case_counterexample",
    "Verif.Defs.C58_prefix_counterexample",
    "Verif.Defs.C58_nameless_counterexample",
    "Verif.Defs.C58_none_counterexample",
    "Verif.Defs.C58_same_counterexample",
    "Verif.Defs.C58_definition",
    "Verif.Defs.C58_register_again"
   ],
   "note": "The counterexamples show what lies outside of the statement: letter case of prefixes, other prefixes, names that are empty or differ in letter case only, unknown identifiers."
  },
  {
   "property": "C59",
   "status": "proved",
   "theorems": [
    "Verif.Import.C59_raw_frames",
    "Verif.Import.C59_raw_sizes",
    "Verif.Import.C59_raw_witness",
    "Verif.Import.C59_raw_counterexample",
    "Verif.Import.frameSize_spec",
    "Verif.Import.C59_wav",
    "Verif.Import.C59_wav_refused",
    "Verif.Import.C59_wav_length",
    "Verif.Import.C59_wav_export",
    "Verif.Import.C59_wav_import",
    "Verif.Import.C59_wav_witness",
    "Verif.Import.C59_rate_counterexample",
    "Verif.Import.C59_dnx",
    "Verif.Import.C59_dnx_frames",
    "Verif.Import.C59_dnx_witness",
    "Verif.Import.C59_dnx_fails",
    "Verif.Import.C59_raw_frame_size"
   ],
   "note": "The counterexamples are about a last frame that is cut off and a sample rate of 0."
  },
  {
   "property": "C60",
   "status": "partial",
   "theorems": [
    "Verif.Mxf.C60_link_partial",
    "Verif.Mxf.C60_same_partial",
    "Verif.Mxf.C60_new",
    "Verif.Mxf.C60_again",
    "Verif.Mxf.C60_known",
    "Verif.Mxf.C60_library",
    "Verif.Mxf.Demo.C60_witness",
    "Verif.Mxf.Demo.C60_witness_there",
    "Verif.Mxf.C60_unknown_length_counterexample",
    "Verif.Mxf.C60_kind_counterexample",
    "Verif.Mxf.C60_cycle_counterexample",
    "Verif.Mxf.C60_half_counterexample",
    "Verif.Mxf.C60_open_counterexample",
    "Verif.Mxf.C60_grid_counterexample",
    "Verif.Mxf.C60_pattern",
    "Verif.Mxf.C60_missing",
    "Verif.Mxf.C60_rate",
    "Verif.Mxf.C60_primer_counterexample"
   ],
   "note": "Missing: names, descriptors, comments and dates of packages; false and shown by the counterexamples: unknown lengths, kinds the library does not know, references in a circle, nothing left behind after an exception, headers that are not closed and complete."
  },
  {
   "property": "C61",
   "status": "partial",
   "theorems": [
    "Verif.C61.C61_copy",
    "Verif.C61.C61_kept",
    "Verif.C61.C61_ready_partial",
    "Verif.C61.C61_stays",
    "Verif.C61.C61_update",
    "Verif.C61.C61_update_kept",
    "Verif.C61.C61_update_ok_partial",
    "Verif.C61.C61_merge_partial",
    "Verif.C61.C61_example",
    "Verif.C61.C61_empty_array_counterexample",
    "Verif.C61.C61_new_file_counterexample",
    "Verif.C61.C61_array_counterexample",
    "Verif.C61.C61_parameters_counterexample",
    "Verif.C61.C61_order_counterexample"
   ],
   "note": "Copies that are made are right and change nothing, for every file. False and shown by the counterexamples: every copy can be made without update, update always succeeds, every copy can be written; C61_update_ok_partial and C61_merge_partial have the conditions under which they succeed."
  },
  {
   "property": "C62",
   "status": "partial",
   "theorems": [
    "Verif.MediaLink.C62_link",
    "Verif.MediaLink.C62_tracks_partial",
    "Verif.MediaLink.C62_numbers",
    "Verif.MediaLink.C62_shows",
    "Verif.MediaLink.C62_walk",
    "Verif.MediaLink.C62_nothing",
    "Verif.MediaLink.C62_example",
    "Verif.MediaLink.C62_streams_counterexample",
    "Verif.MediaLink.C62_length_counterexample",
    "Verif.MediaLink.C62_codec_counterexample",
    "Verif.MediaLink.C62_rate_counterexample",
    "Verif.MediaLink.C62_silent_counterexample"
   ],
   "note": "Proved for files with at most one video and one audio stream and complete metadata (C62_link says what is made for any number of streams). False and shown by the counterexamples: slots for every stream, stored lengths, nothing added when metadata is missing."
  },
  {
   "property": "C63",
   "status": "partial",
   "theorems": [
    "Verif.Interpolation.C63_before",
    "Verif.Interpolation.C63_after",
    "Verif.Interpolation.C63_constant",
    "Verif.Interpolation.C63_linear",
    "Verif.Interpolation.C63_keyframe_partial",
    "Verif.Interpolation.C63_cubic",
    "Verif.Interpolation.C63_cubic_between",
    "Verif.Interpolation.C63_bezier",
    "Verif.Interpolation.C63_bezier_answers_partial",
    "Verif.Interpolation.C63_bezier_between",
    "Verif.Interpolation.C63_single",
    "Verif.Interpolation.C63_example",
    "Verif.Interpolation.C63_order_counterexample",
    "Verif.Interpolation.C63_degree_counterexample"
   ],
   "note": "Proved in exact arithmetic; floating point rounding is not modelled. Keyframes closer than 3/10^10 are left out where an equation is solved. Bezier: every value returned is on the curve up to a stated tolerance in time; that there is a value needs leading coefficients that are zero or at least 1/10^10, and the counterexample shows this is needed."
  },
  {
   "property": "C64",
   "status": "partial",
   "theorems": [
    "Verif.Interpolation.C64_offsets_partial",
    "Verif.Interpolation.C64_answers",
    "Verif.Interpolation.C64_between",
    "Verif.Interpolation.C64_constant",
    "Verif.Interpolation.C64_same",
    "Verif.Interpolation.C64_example",
    "Verif.Interpolation.C64_one_frame_counterexample",
    "Verif.Interpolation.C64_before_counterexample"
   ],
   "note": "Proved in exact arithmetic for ranges of more than one frame together with the center that do not end before it; the counterexamples show that all other ranges raise."
  },
  {
   "property": "C65",
   "status": "partial",
   "theorems": [
    "Verif.StreamProp.C65_program_partial",
    "Verif.StreamProp.C65_file_partial",
    "Verif.StreamProp.C65_copy",
    "Verif.StreamProp.C65_read_only",
    "Verif.StreamProp.C65_example",
    "Verif.StreamProp.C65_new_stream_counterexample",
    "Verif.StreamProp.C65_dropped_counterexample",
    "Verif.StreamProp.C65_missing_counterexample",
    "Verif.StreamProp.C65_detach_counterexample",
    "Verif.StreamProp.C65_exception_counterexample",
    "Verif.StreamProp.C65_deleted_counterexample",
    "Verif.StreamProp.C65_leftover_counterexample"
   ],
   "note": "Proved for all programs whose events have a rule in the specification. Left out, because the claim is false there (counterexamples): reading a missing stream, a new stream of an attached object without unsaved changes, deleting the property of an attached object, leaving by an exception."
  },
  {
   "property": "C66",
   "status": "partial",
   "theorems": [
    "Verif.Props.C66.C66_text",
    "Verif.Props.C66.C66_text_zero",
    "Verif.Props.C66.C66_text_only",
    "Verif.Props.C66.C66_str",
    "Verif.Props.C66.C66_float",
    "Verif.Props.C66.C66_float_small",
    "Verif.Props.C66.C66_float_near",
    "Verif.Props.C66.C66_float_rate",
    "Verif.Props.C66.C66_float_large_partial",
    "Verif.Props.C66.C66_float_large_counterexample",
    "Verif.Props.C66.C66_float_huge_counterexample",
    "Verif.Props.C66.C66_float_negative_counterexample",
    "Verif.Props.C66.C66_text_example",
    "Verif.Props.C66.C66_text_zero_example",
    "Verif.Props.C66.C66_float_example"
   ],
   "note": "Texts in full. Floats: closest fraction whenever it fits in int32s; for positive floats up to 0x7FFFFFFF that do not fit, the stored value is the next one above with the numerator 0x7FFFFFFF; beyond that and for negative ones the claim is false (counterexamples)."
  },
  {
   "property": "C67",
   "status": "proved",
   "theorems": [
    "Verif.MasterImport.C67_import",
    "Verif.MasterImport.C67_failed",
    "Verif.MasterImport.C67_history",
    "Verif.MasterImport.C67_numbers",
    "Verif.MasterImport.C67_walk",
    "Verif.MasterImport.C67_tape_used",
    "Verif.MasterImport.C67_example",
    "Verif.MasterImport.C67_stray_counterexample",
    "Verif.MasterImport.C67_tape_counterexample"
   ],
   "note": "The counterexamples are about what failing imports leave behind. With gaps in the slot numbers see C37."
  },
  {
   "property": "C68",
   "status": "proved",
   "theorems": [
    "Verif.Saving.C68_history",
    "Verif.Saving.C68_saved",
    "Verif.Saving.C68_complete",
    "Verif.Saving.C68_refused",
    "Verif.Saving.C68_retry",
    "Verif.Saving.newFile_opened",
    "Verif.Saving.C68_atomic_counterexample",
    "Verif.Saving.C68_require_counterexample",
    "Verif.Saving.C68_close_counterexample"
   ],
   "note": "The counterexamples show what is not claimed: a refused save is not atomic on disk, and properties required later are not checked in unchanged objects."
  },
  {
   "property": "C69",
   "status": "partial",
   "theorems": [
    "Verif.Handles.C69_fresh",
    "Verif.Handles.C69_kept_partial",
    "Verif.Handles.C69_opened",
    "Verif.Handles.C69_twice_counterexample",
    "Verif.Handles.C69_removed_counterexample"
   ],
   "note": "Programs that keep no properties: proved. Kept properties: proved as long as no other property object holds the name and, for reading, until the value is removed; false otherwise, as the counterexamples show."
  },
  {
   "property": "C70",
   "status": "partial",
   "theorems": [
    "Verif.Content.C70_history_partial",
    "Verif.Content.C70_kinds",
    "Verif.Content.C70_essence_partial",
    "Verif.Content.C70_clip_partial",
    "Verif.Content.C70_renamed",
    "Verif.Content.C70_refused_counterexample",
    "Verif.Content.C70_other_counterexample",
    "Verif.Content.C70_taken_counterexample"
   ],
   "note": "The generators by kind: proved for every program. Lookup by id, clips, essence and the index: proved as long as members get mob ids that no other member has; false otherwise, as the counterexamples show."
  },
  {
   "property": "C71",
   "status": "partial",
   "theorems": [
    "Verif.MxfValues.C71_name",
    "Verif.MxfValues.C71_text",
    "Verif.MxfValues.C71_int_partial",
    "Verif.MxfValues.C71_rational_partial",
    "Verif.MxfValues.C71_lines",
    "Verif.MxfValues.C71_layout",
    "Verif.MxfValues.C71_stamp",
    "Verif.MxfValues.C71_int_counterexample",
    "Verif.MxfValues.C71_rational_counterexample"
   ],
   "note": "Names, texts, line maps, layouts and time stamps: proved for all. Numbers in comments only in little-endian order and rationals only if not negative; false otherwise, as the counterexamples show."
  },
  {
   "property": "C72",
   "status": "partial",
   "theorems": [
    "Verif.PropDef.C72_history_partial",
    "Verif.PropDef.C72_refused",
    "Verif.PropDef.C72_class_partial",
    "Verif.PropDef.C72_foreign",
    "Verif.PropDef.C72_empty_counterexample",
    "Verif.PropDef.C72_nul_counterexample",
    "Verif.PropDef.C72_lost_counterexample"
   ],
   "note": "What is refused: proved for all. The record: proved for names that are not empty and have no U+0000, and when nothing is set after the definition was saved; false otherwise, as the counterexamples show."
  },
  {
   "property": "C73",
   "status": "proved",
   "theorems": [
    "Verif.StreamLayout.C73_properties",
    "Verif.StreamLayout.C73_forms",
    "Verif.StreamLayout.C73_paths",
    "Verif.StreamLayout.C73_vector",
    "Verif.StreamLayout.C73_set",
    "Verif.StreamLayout.C73_weak_array",
    "Verif.StreamLayout.C73_weak_ref"
   ],
   "note": "The tables of fields are stated in Spec/StreamLayout; their agreement with the published specification is not checked."
  }
 ]
}