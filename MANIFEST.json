{
 "claims": [
  {
   "property": "C01",
   "status": "proved",
   "theorems": [
    "Verif.C01_direction_new",
    "Verif.C01_direction_new_unique",
    "Verif.C01_direction_add_sub",
    "Verif.C01_direction_group"
   ],
   "note": "All integers; Direction modelled as the stored int."
  },
  {
   "property": "C02",
   "status": "proved",
   "theorems": [
    "Verif.C02_rotate_meaning",
    "Verif.C02_rotate_other_flag",
    "Verif.C02_rotate_inverse",
    "Verif.C02_rotate_compose",
    "Verif.C02_rotate_full_turn",
    "Verif.C02_rotate_valid"
   ],
   "note": "All directions and all integer amounts, both direction flags."
  },
  {
   "property": "C03",
   "status": "proved",
   "theorems": [
    "Verif.C03_vector_rotates",
    "Verif.C03_vector_distinct",
    "Verif.C03_vector_unit",
    "Verif.C03_vector_named",
    "Verif.C03_predicates"
   ],
   "note": "All directions and all integer amounts; the four predicates agree with the step vectors."
  },
  {
   "property": "C04",
   "status": "proved",
   "theorems": [
    "Verif.C04_rotate_meaning",
    "Verif.C04_rotate_compose",
    "Verif.C04_rotate_linear"
   ],
   "note": "Vectors with numeric coordinates; floats are exact rationals. Rotation returns a new vector (values are immutable in the model)."
  },
  {
   "property": "C05",
   "status": "proved",
   "theorems": [
    "Verif.C05_componentwise",
    "Verif.C05_truediv",
    "Verif.C05_rejects",
    "Verif.C05_add_sub_cancel",
    "Verif.C05_add_laws"
   ],
   "note": "Floats are exact rationals."
  },
  {
   "property": "C06",
   "status": "proved",
   "theorems": [
    "Verif.C06_comparison_meaning",
    "Verif.C06_comparison_rejects",
    "Verif.C06_order_laws",
    "Verif.C06_not_total"
   ],
   "note": "Floats are exact rationals (no NaN)."
  },
  {
   "property": "C07",
   "status": "proved",
   "theorems": [
    "Verif.C07_rounding",
    "Verif.C07_divmod",
    "Verif.C07_divmod_reflected",
    "Verif.C07_divmod_zero",
    "Verif.C07_rmod_float_none"
   ],
   "note": "Floats are exact rationals; float % Vector evaluating to None is proved as such."
  },
  {
   "property": "C08",
   "status": "proved",
   "theorems": [
    "Verif.C08_in_range",
    "Verif.C08_assign_exact",
    "Verif.C08_roundtrip",
    "Verif.C08_kwargs",
    "Verif.C08_eq"
   ],
   "note": "Histories of component assignments by induction."
  },
  {
   "property": "C09",
   "status": "proved",
   "theorems": [
    "Verif.C09_roundtrip",
    "Verif.C09_version",
    "Verif.C09_injective",
    "Verif.C09_keys",
    "Verif.C09_int_key",
    "Verif.C09_key_text",
    "Verif.C09_floats",
    "Verif.C09_shortest",
    "Verif.C09_python",
    "Verif.C09_python_injective"
   ],
   "note": "zlib is a parameter assumed lossless (hypothesis); base64, UTF-8 and JSON text are modelled. C09_roundtrip is for any way of writing floats under the hypothesis that their texts are exact; C09_floats proves that hypothesis for float.__repr__ and float() (modelled: shortest digits, round to nearest even), and C09_python is the claim without it. Lone surrogates, NaN and infinities are outside the model, and so are Python's limits on recursion depth and integer digits."
  },
  {
   "property": "C10",
   "status": "partial",
   "theorems": [
    "Verif.C10_version",
    "Verif.C10_base64",
    "Verif.C10_base64_length",
    "Verif.C10_zlib",
    "Verif.C10_false",
    "Verif.C10_cases_partial",
    "Verif.C10_kinds_partial",
    "Verif.C10_lenient"
   ],
   "note": "False of the code: the empty string raises IndexError, non-ASCII text, bytes that are not UTF-8 and text that is not JSON raise ValueError (C10_false); the cases are described exactly (C10_cases_partial, C10_kinds_partial). Strings that are no encodings may also be accepted (C10_lenient)."
  },
  {
   "property": "C11",
   "status": "proved",
   "theorems": [
    "Verif.C11_ownership",
    "Verif.C11_free"
   ],
   "note": "All reachable worlds: any sequence of API calls incl. calls that raise midway, any number of blueprints."
  },
  {
   "property": "C12",
   "status": "proved",
   "theorems": [
    "Verif.C12_add_listed",
    "Verif.C12_add_foreign",
    "Verif.C12_add_listed_elsewhere",
    "Verif.C12_add_type",
    "Verif.C12_add_new"
   ],
   "note": "All reachable worlds."
  },
  {
   "property": "C13",
   "status": "proved",
   "theorems": [
    "Verif.C13_add",
    "Verif.C13_make",
    "Verif.C13_rotate",
    "Verif.C13_load",
    "Verif.C13_history"
   ],
   "note": "make, add, rotate and load, for all worlds; C13_history: the order holds after every history in which no import or rotation raised and no entity was moved on its own. Adding an entity that is already listed returns without sorting."
  },
  {
   "property": "C14",
   "status": "proved",
   "theorems": [
    "Verif.C14_lookup",
    "Verif.C14_tuple",
    "Verif.C14_total"
   ],
   "note": "All worlds with prototype data that has numeric selection boxes for the listed names."
  },
  {
   "property": "C15",
   "status": "proved",
   "theorems": [
    "Verif.C15_delete_at",
    "Verif.C15_delete_at_fails",
    "Verif.C15_delete_then_add"
   ],
   "note": "All worlds."
  },
  {
   "property": "C16",
   "status": "proved",
   "theorems": [
    "Verif.C16_remove",
    "Verif.C16_del_is_remove",
    "Verif.C16_numbers",
    "Verif.C16_remove_fails",
    "Verif.C16_remove_add"
   ],
   "note": "All reachable worlds."
  },
  {
   "property": "C17",
   "status": "proved",
   "theorems": [
    "Verif.C17_get_by_id",
    "Verif.C17_ids_stable"
   ],
   "note": "All worlds and ids."
  },
  {
   "property": "C18",
   "status": "proved",
   "theorems": [
    "Verif.C18_permutation"
   ],
   "note": "All entity lists and permutations with pairwise different positions, loaded into any blueprint; numbers and settings compared by value."
  },
  {
   "property": "C19",
   "status": "proved",
   "theorems": [
    "Verif.C19_meaning",
    "Verif.C19_compose",
    "Verif.C19_compose_around",
    "Verif.C19_works",
    "Verif.C19_whole_turns",
    "Verif.C19_four_times",
    "Verif.C19_after_rotation"
   ],
   "note": "All reachable blueprints, all integer amounts. Exact equality of the whole state for the default centre; for an arbitrary centre equality up to the representation of equal coordinates (1 vs 1.0). C19_meaning describes a single rotation independently of the code. Coordinates are exact numbers in the model (no float rounding)."
  },
  {
   "property": "C20",
   "status": "partial",
   "theorems": [
    "Verif.C20_position_partial",
    "Verif.C20_whole_turns_partial",
    "Verif.C20_false"
   ],
   "note": "False of the code (C20_false, witness): the counter-clockwise branch computes amount % (4 - amount). Proved exactly when the position is restored."
  },
  {
   "property": "C21",
   "status": "partial",
   "theorems": [
    "Verif.C21_default",
    "Verif.C21_explicit_partial",
    "Verif.C21_false"
   ],
   "note": "False of the code with an explicit direction (C21_false, witness). Proved for the default direction, and an exact description of the explicit case. Tiles can never be in a blueprint (see C42), so this is about Tile.rotate and Entity.rotate with the arguments Blueprint.rotate passes on."
  },
  {
   "property": "C22",
   "status": "partial",
   "theorems": [
    "Verif.C22_symmetric_partial",
    "Verif.C22_false"
   ],
   "note": "False of the code for selection boxes not centred on the entity (C22_false, witness); proved for all symmetric boxes."
  },
  {
   "property": "C23",
   "status": "partial",
   "theorems": [
    "Verif.C23_raises_iff",
    "Verif.C23_raises_only_if",
    "Verif.C23_state_partial",
    "Verif.C23_false"
   ],
   "note": "First half false of the code (C23_false, witness): entities before the failing one stay turned; exactly what is left behind is C23_state_partial. Second half proved as an equivalence."
  },
  {
   "property": "C24",
   "status": "proved",
   "theorems": [
    "Verif.C24_equal",
    "Verif.C24_refl",
    "Verif.C24_symm",
    "Verif.C24_trans",
    "Verif.C24_flip",
    "Verif.C24_orientate",
    "Verif.C24_flipColor"
   ],
   "note": "All wires, ends may be None. Colours other than red and green are recoloured to green (as in the code)."
  },
  {
   "property": "C25",
   "status": "proved",
   "theorems": [
    "Verif.C25_distinct",
    "Verif.C25_connect",
    "Verif.C25_recolor"
   ],
   "note": "All histories of calls, failing or not, that never recolour a wire; C25_recolor shows that the restriction is needed."
  },
  {
   "property": "C26",
   "status": "proved",
   "theorems": [
    "Verif.C26_export",
    "Verif.C26_symmetric"
   ],
   "note": "All reachable worlds in which the export succeeds; multiplicities included. The A-lists-B-iff-B-lists-A corollary needs distinct numbers and no wires to removed entities."
  },
  {
   "property": "C27",
   "status": "partial",
   "theorems": [
    "Verif.C27_near",
    "Verif.C27_partial",
    "Verif.C27_wrong",
    "Verif.C27_false"
   ],
   "note": "False of the code: circuit_id is the near connector (C27_near, C27_wrong, witness C27_false). Proved when wires join connectors of the same number."
  },
  {
   "property": "C28",
   "status": "partial",
   "theorems": [
    "Verif.C28_unchanged",
    "Verif.C28_repeat_partial",
    "Verif.C28_false"
   ],
   "note": "Export changes only the order of wire ends (C28_unchanged, no restriction). Repeatability proved for any number of exports unless a wire joins two different connectors of one entity, where it is false (C28_false)."
  },
  {
   "property": "C29",
   "status": "proved",
   "theorems": [
    "Verif.C29_resolved",
    "Verif.C29_wires",
    "Verif.C29_dangling"
   ],
   "note": "All connection data; wires compared up to the order of the ends. Sides are read as in C75."
  },
  {
   "property": "C30",
   "status": "partial",
   "theorems": [
    "Verif.C30_stale",
    "Verif.C30_partial",
    "Verif.C30_false"
   ],
   "note": "False of the code: wires to a removed entity stay (C30_stale, C30_false). Proved for entities without wires."
  },
  {
   "property": "C31",
   "status": "proved",
   "theorems": [
    "Verif.C31_unchanged",
    "Verif.C31_entity",
    "Verif.C31_entity_never",
    "Verif.C31_recipe",
    "Verif.C31_recipe_never",
    "Verif.C31_signal",
    "Verif.C31_signal_never",
    "Verif.C31_tile",
    "Verif.C31_tiles_make",
    "Verif.C31_import"
   ],
   "note": "Unknown entity, recipe, signal and tile names; also through import. Falsy non-string values in place of signals are stored unchecked by the code (not names)."
  },
  {
   "property": "C32",
   "status": "partial",
   "theorems": [
    "Verif.C32_entity",
    "Verif.C32_entity_error",
    "Verif.C32_control_partial",
    "Verif.C32_control_error_partial",
    "Verif.C32_control_reserved",
    "Verif.C32_conditions",
    "Verif.C32_false"
   ],
   "note": "Proved for entity settings, for all control behaviours except the inserter, and for combinator conditions. False for inserters (C32_false): their control behaviour drops unknown settings."
  },
  {
   "property": "C33",
   "status": "partial",
   "theorems": [
    "Verif.C33_exports_again_partial",
    "Verif.C33_made_exports_again_partial",
    "Verif.C33_false_condition",
    "Verif.C33_false_decider",
    "Verif.C33_false_filter",
    "Verif.C33_false_strict",
    "Verif.C33_false_rename"
   ],
   "note": "False of the code in full: witnesses C33_false_* (constant first operand of a circuit condition lost; decider comparison with a constant refused; non-text filter name; strict=False not exported; renaming to another type keeps settings). Proved for every other value: after any calls without renaming/new prototype data/custom mixins, the export of every strict entity is accepted and exported again."
  },
  {
   "property": "C34",
   "status": "partial",
   "theorems": [
    "Verif.C34_arithmetic",
    "Verif.C34_decider_iff_partial",
    "Verif.C34_decider_constant_refused",
    "Verif.C34_false_decider"
   ],
   "note": "Proved in full for arithmetic combinators (C34_arithmetic). For deciders the exact condition is proved (C34_decider_iff_partial): survives iff second operand and output are not constants; negation with witness C34_false_decider. C34_decider_constant_refused: decider conditions with first_signal and constant are never accepted."
  },
  {
   "property": "C35",
   "status": "partial",
   "theorems": [
    "Verif.C35_reload_python_partial",
    "Verif.C35_reload_partial",
    "Verif.C35_reload_string_partial",
    "Verif.C35_false_wires",
    "Verif.C35_false_decider",
    "Verif.C35_history_partial"
   ],
   "note": "False of the code in general: a wire between connectors with different numbers comes back at other connectors (C35_false_wires), the export of a decider comparing with a constant is refused (C35_false_decider). C35_reload_partial and C35_reload_string_partial prove the claim for every history of calls without renames, prototype replacement or custom mixins and every blueprint satisfying Spec.Reloadable (strict entities, readable constants and filter names, entities in reading order with distinct numbers, wires at equal connector numbers, schedules naming listed entities), imported into any blank blueprint of any reachable world. C35_history_partial replaces the conditions on order, numbers, schedules and the ends of wires by conditions on the calls made (no import or rotation raised, no wired or scheduled entity removed, no wires to other blueprints, nothing moved on its own). The string version assumes zlib lossless and exact float text; C35_reload_python_partial has the floats of Python instead of the latter. Blueprints with custom behaviours: C80_reload_partial."
  },
  {
   "property": "C36",
   "status": "partial",
   "theorems": [
    "Verif.C36_unchanged_iff",
    "Verif.C36_again_partial",
    "Verif.C36_again_raises",
    "Verif.C36_left",
    "Verif.C36_failed_rest",
    "Verif.C36_failed_conditions",
    "Verif.C36_false_combinator",
    "Verif.C36_false_schedules",
    "Verif.C36_failed_import"
   ],
   "note": "False of the code: load pops the schedules and empties the conditions of combinators in the caller's own data (C36_false_combinator, C36_false_schedules, C36_failed_import). Proved instead: exactly when the data are unchanged (C36_unchanged_iff), that loading again loses only the schedules when there is no combinator (C36_again_partial) and raises KeyError when there is one (C36_again_raises). C36_left, C36_failed_rest and C36_failed_conditions describe exactly what is left after success and after a rejected entity. Hypothesis: the blueprint has no custom mixins; the data are a tree."
  },
  {
   "property": "C37",
   "status": "partial",
   "theorems": [
    "Verif.C37_replace",
    "Verif.C37_append",
    "Verif.C37_sequence",
    "Verif.C37_import",
    "Verif.C37_import_none_partial",
    "Verif.C37_import_false",
    "Verif.C37_import_missing",
    "Verif.C37_import_malformed"
   ],
   "note": "Replace and append semantics of every table, last-wins sequences, and the import of all five tables are proved for all data. 'All or none' is false of the code: a missing section raises after earlier tables were set (C37_import_false); which tables are set is described exactly (C37_import_missing), also when a section to append is not a table (C37_import_malformed)."
  },
  {
   "property": "C38",
   "status": "partial",
   "theorems": [
    "Verif.C38_slots",
    "Verif.C38_out_of_range_partial",
    "Verif.C38_zero_accepted"
   ],
   "note": "Slots 1..4 proved. Rejection is proved outside -3..4; indices 0 and -1..-3 are accepted by the code (C38_zero_accepted shows the negation)."
  },
  {
   "property": "C39",
   "status": "partial",
   "theorems": [
    "Verif.C39_entity",
    "Verif.C39_total",
    "Verif.C39_empty",
    "Verif.C39_exact",
    "Verif.C39_outermost",
    "Verif.C39_order",
    "Verif.C39_bounds_partial",
    "Verif.C39_wrong",
    "Verif.C39_false",
    "Verif.C39_center",
    "Verif.C39_corners"
   ],
   "note": "Exact result proved for all reachable blueprints (outermost border, fraction cut off; independent of order). Tightest bounds when borders are integers. False of the code for fractional borders (C39_false, C39_wrong)."
  },
  {
   "property": "C40",
   "status": "partial",
   "theorems": [
    "Verif.C40_around_partial",
    "Verif.C40_default_partial",
    "Verif.C40_empty",
    "Verif.C40_returns",
    "Verif.C40_false",
    "Verif.C40_weighted_false"
   ],
   "note": "The shift of every entity is proved for all reachable blueprints. False of the code: the call then raises AttributeError unless the centre is the origin; weighted_center always raises TypeError."
  },
  {
   "property": "C41",
   "status": "proved",
   "theorems": [
    "Verif.C41_schedules"
   ],
   "note": "All blueprints and schedules."
  },
  {
   "property": "C42",
   "status": "partial",
   "theorems": [
    "Verif.C42_make_fails",
    "Verif.C42_make_valid",
    "Verif.C42_add_fails",
    "Verif.C42_import_fails",
    "Verif.C42_no_tiles",
    "Verif.C42_lookup_partial",
    "Verif.C42_lookup_fails",
    "Verif.C42_false",
    "Verif.C42_json_partial"
   ],
   "note": "False of the code: no tile can be placed or imported (C42_false, C42_make_fails, C42_import_fails); proved exactly what happens, and that standalone tiles round-trip."
  },
  {
   "property": "C43",
   "status": "partial",
   "theorems": [
    "Verif.C43_eq_partial",
    "Verif.C43_iff_partial",
    "Verif.C43_data_partial",
    "Verif.C43_refl_partial",
    "Verif.C43_symm_partial",
    "Verif.C43_trans_partial",
    "Verif.C43_other",
    "Verif.C43_ne",
    "Verif.C43_unchanged",
    "Verif.C43_false"
   ],
   "note": "False of the code for wires between two connectors of one entity (bp != bp) and for blueprints whose export raises (C43_false); proved otherwise."
  },
  {
   "property": "C44",
   "status": "proved",
   "theorems": [
    "Verif.C44_builds",
    "Verif.C44_order",
    "Verif.C44_conflict",
    "Verif.C44_rename",
    "Verif.C44_rename_new"
   ],
   "note": "Every row builds (any class number), consulted in row order; with any mixins, an accepted list is consulted in order; unbounded renames within one type keep settings, behaviours and export. Some custom mixin lists are rejected by Python itself (C44_conflict)."
  },
  {
   "property": "C45",
   "status": "partial",
   "theorems": [
    "Verif.C45_old_entities_stay",
    "Verif.C45_not_replaced",
    "Verif.C45_empty_partial"
   ],
   "note": "False of the code: load appends (C45_not_replaced, C45_old_entities_stay). Proved for loading into a fresh blueprint."
  },
  {
   "property": "C46",
   "status": "proved",
   "theorems": [
    "Verif.C46_range",
    "Verif.C46_rotate",
    "Verif.C46_none",
    "Verif.C46_assign"
   ],
   "note": "Invariant over all histories of calls; rotation and assignment."
  },
  {
   "property": "C47",
   "status": "partial",
   "theorems": [
    "Verif.C47_false",
    "Verif.C47_partial"
   ],
   "note": "False of the code in every state (C47_false). Proved with integer sides."
  },
  {
   "property": "C48",
   "status": "proved",
   "theorems": [
    "Verif.C48_table",
    "Verif.C48_named",
    "Verif.C48_gathered",
    "Verif.C48_complete",
    "Verif.C48_boxes",
    "Verif.C48_fields",
    "Verif.C48_signals",
    "Verif.C48_signal_kinds"
   ],
   "note": "The Lua and Python tables agree; gathered entities can be named, game entities of a supported type are gathered with their type and box. The JSON file between the two is C58. C48_signal_kinds: which signals are listed, under which type. C48_fields: which attributes of a prototype are gathered."
  },
  {
   "property": "C49",
   "status": "proved",
   "theorems": [
    "Verif.C49_tile_rotate_meaning",
    "Verif.C49_tile_rotate_group",
    "Verif.C49_tile_rotate_distance"
   ],
   "note": "Any argument other than 'clockwise' turns the other way."
  },
  {
   "property": "C50",
   "status": "proved",
   "theorems": [
    "Verif.C50_load_export",
    "Verif.C50_color",
    "Verif.C50_no_color",
    "Verif.C50_set_label",
    "Verif.C50_set_label_color"
   ],
   "note": "All labels, colours and histories."
  },
  {
   "property": "C51",
   "status": "partial",
   "theorems": [
    "Verif.C51_condition_iff_partial",
    "Verif.C51_false_second_signal",
    "Verif.C51_false_first_signal",
    "Verif.C51_comparator",
    "Verif.C51_first_text",
    "Verif.C51_signal_id"
   ],
   "note": "False of the code for conditions: a second signal is exported as a dict and refused on import (C51_false_second_signal), a condition without first signal cannot be imported (C51_false_first_signal). C51_condition_iff_partial says exactly which exports are accepted. Comparators and signal ids hold. C51_first_text: texts as first signals."
  },
  {
   "property": "C52",
   "status": "partial",
   "theorems": [
    "Verif.C52_like_make",
    "Verif.C52_control_like_make",
    "Verif.C52_control_setting",
    "Verif.C52_condition_part",
    "Verif.C52_arithmetic_part",
    "Verif.C52_decider_part",
    "Verif.C52_rejected_partial",
    "Verif.C52_only",
    "Verif.C52_accepts",
    "Verif.C52_reads_back",
    "Verif.C52_control_rejected",
    "Verif.C52_control_missing",
    "Verif.C52_control_only",
    "Verif.C52_control_signal",
    "Verif.C52_control_operator",
    "Verif.C52_false"
   ],
   "note": "Proved: assignment equals construction (C52_like_make for every setting, lists of objects included; C52_control_like_make for the control behaviour as a whole; C52_control_setting for each single setting of it; C52_condition_part, C52_arithmetic_part and C52_decider_part for the parts of conditions), only the setting changes, exact ranges for the settings with a closed range and for signals and operators of control behaviours, rejected assignments change nothing except in the four settings stored part by part, for which C52_false proves the negation. Entities are strict and without custom mixins in C52_like_make (C80_like_make is without this condition) and C52_control_setting."
  },
  {
   "property": "C53",
   "status": "proved",
   "theorems": [
    "Verif.C53_listed",
    "Verif.C53_total",
    "Verif.C53_export"
   ],
   "note": "C53_listed describes the listing up to equality (permutation, sorted, ties in order of creation), C53_total when it succeeds, C53_export the order in the export. Proved for all worlds, not only reachable ones."
  },
  {
   "property": "C54",
   "status": "partial",
   "theorems": [
    "Verif.C54_numbers_partial",
    "Verif.C54_export_partial",
    "Verif.C54_false"
   ],
   "note": "False of the code: an import that raises midway leaves numbers taken from the data (C54_false). C54_numbers_partial and C54_export_partial prove it for every history in which no import raised (all other calls may raise)."
  },
  {
   "property": "C55",
   "status": "partial",
   "theorems": [
    "Verif.C55_listed_partial",
    "Verif.C55_export_partial",
    "Verif.C55_false"
   ],
   "note": "False of the code: a removed locomotive stays in its schedule (C55_false). C55_listed_partial covers every history that takes no scheduled entity out of its blueprint, C55_export_partial those of them in which no import raised."
  },
  {
   "property": "C56",
   "status": "proved",
   "theorems": [
    "Verif.C56_untouched",
    "Verif.C56_loose",
    "Verif.C56_data",
    "Verif.C56_history",
    "Verif.C56_export",
    "Verif.C56_selfContained",
    "Verif.C56_leak"
   ],
   "note": "All calls of Op, failing ones included. The export claim has the condition of its statement; C56_selfContained derives it from the calls made, C56_leak shows that it is needed."
  },
  {
   "property": "C57",
   "status": "partial",
   "theorems": [
    "Verif.C57_listed_partial",
    "Verif.C57_export_partial",
    "Verif.C57_false"
   ],
   "note": "False of the code: a removed entity stays at the ends of its wires (C57_false). C57_listed_partial covers every history that takes no wired entity out and connects only entities of one blueprint, C57_export_partial those of them in which no import raised."
  },
  {
   "property": "C58",
   "status": "proved",
   "theorems": [
    "Verif.C58_read",
    "Verif.C58_unique",
    "Verif.C58_represent",
    "Verif.C58_import",
    "Verif.C58_supported",
    "Verif.C58_string_iff",
    "Verif.C58_empty",
    "Verif.C58_boolean_key",
    "Verif.C58_other",
    "Verif.C58_integer",
    "Verif.C58_float_iff",
    "Verif.C58_number_iff",
    "Verif.C58_third_false"
   ],
   "note": "The conditions are those of the statement: C58_string_iff shows that the one on strings is exact, C58_boolean_key and C58_empty what happens outside. The text of numbers is a parameter; for the text that Lua 5.2 writes (%.14g), C58_number_iff characterises the numbers whose text is exact: the floats that have a decimal of 14 digits (C58_integer: integers below 10^14 stay integers; C58_third_false: a third does not survive)."
  },
  {
   "property": "C59",
   "status": "partial",
   "theorems": [
    "Verif.C59_imported_only",
    "Verif.C59_kept_partial",
    "Verif.C59_separate_partial",
    "Verif.C59_connect_lost",
    "Verif.C59_attached_elsewhere"
   ],
   "note": "False of the code: `parse_connections` forgets the wires made by connect (C59_connect_lost), and numbers of a second import are looked up among all entities, so that its wires are attached to entities of the first (C59_attached_elsewhere). Proved: after an import every wire stands in the connection data of some entity; imported wires stay, and old and new entities are not joined, when no number that the connection data names is shared."
  },
  {
   "property": "C60",
   "status": "partial",
   "theorems": [
    "Verif.C60_in_row",
    "Verif.C60_rows",
    "Verif.C60_unusable",
    "Verif.C60_usable_partial"
   ],
   "note": "False of the code: the behaviours Container and Variation are in no row of the table, so the settings bar and variation are refused for every entity unless the blueprint has custom behaviours (C60_unusable). Proved: every other setting can be given to some entity and is exported; every accepted setting belongs to a behaviour of the row."
  },
  {
   "property": "C61",
   "status": "proved",
   "theorems": [
    "Verif.C61_position",
    "Verif.C61_position_refused",
    "Verif.C61_position_missing",
    "Verif.C61_position_like_make",
    "Verif.C61_direction",
    "Verif.C61_direction_total",
    "Verif.C61_direction_refused",
    "Verif.C61_direction_like_make",
    "Verif.C61_exported",
    "Verif.C61_number",
    "Verif.C61_rename"
   ],
   "note": "Positions are objects with x and y (other forms of points: C04). Directions are numbers. Renaming: see also C44, C50."
  },
  {
   "property": "C62",
   "status": "partial",
   "theorems": [
    "Verif.C62_flip",
    "Verif.C62_recolor",
    "Verif.C62_recolor_twice_partial",
    "Verif.C62_flip_export_partial",
    "Verif.C62_flip_export_false",
    "Verif.C62_recolor_twice_false",
    "Verif.C62_recolor_export"
   ],
   "note": "Turning a wire between two connectors of the same entity changes the export (C62_flip_export_false), and a wire of a colour other than red and green does not get it back (C62_recolor_twice_false). Proved for all other wires."
  },
  {
   "property": "C63",
   "status": "proved",
   "theorems": [
    "Verif.C63_entity",
    "Verif.C63_known",
    "Verif.C63_wrapped",
    "Verif.C63_exported"
   ],
   "note": "Order inside the control behaviour of an entity is covered; values nested deeper (conditions, filters) are taken as they are."
  },
  {
   "property": "C64",
   "status": "partial",
   "theorems": [
    "Verif.C64_shape",
    "Verif.C64_switch",
    "Verif.C64_pole",
    "Verif.C64_pole_make"
   ],
   "note": "False of the code: no data with a copper wire can be imported, in any reachable world (C64_switch, C64_pole). C64_shape says what form the connections of imported data have."
  },
  {
   "property": "C65",
   "status": "partial",
   "theorems": [
    "Verif.C65_settings",
    "Verif.C65_controls_partial",
    "Verif.C65_import_makes",
    "Verif.C65_import",
    "Verif.C65_import_controls_partial",
    "Verif.C65_modules_false",
    "Verif.C65_color_false",
    "Verif.C65_accepts",
    "Verif.C65_controls_accepts"
   ],
   "note": "False of the code for modules in assembling machines, furnaces, labs, mining drills and rocket silos (C65_modules_false) and for painted locomotives (C65_color_false). Proved: the lists are exact, apart from unknown control settings of inserters, which are dropped (C32)."
  },
  {
   "property": "C66",
   "status": "partial",
   "theorems": [
    "Verif.C66_unused",
    "Verif.C66_unused_export",
    "Verif.C66_static",
    "Verif.C66_assign",
    "Verif.C66_make",
    "Verif.C66_import",
    "Verif.C66_missing_false",
    "Verif.C66_accepts",
    "Verif.C66_type_false"
   ],
   "note": "False of the code. The imported table of items has no effect on any history of calls (C66_unused) or export; names are checked against the static table of the library (C66_assign, C66_make, C66_import), which lacks items of the shipped prototype data (C66_missing_false), has other names (C66_accepts) and other types (C66_type_false)."
  },
  {
   "property": "C67",
   "status": "proved",
   "theorems": [
    "Verif.C67_sort",
    "Verif.C67_in_order",
    "Verif.C67_twice",
    "Verif.C67_export",
    "Verif.C67_rotate"
   ],
   "note": "C67_rotate holds in reachable worlds, where no blueprint has tiles."
  },
  {
   "property": "C68",
   "status": "proved",
   "theorems": [
    "Verif.C68_only_wires",
    "Verif.C68_other_blueprints",
    "Verif.C68_twice",
    "Verif.C68_restores",
    "Verif.C68_import"
   ],
   "note": "C68_restores and C68_import: wires made with connect are dropped, recolouring and turning of imported wires is undone."
  },
  {
   "property": "C69",
   "status": "partial",
   "theorems": [
    "Verif.C69_empty",
    "Verif.C69_data",
    "Verif.C69_string",
    "Verif.C69_encoded",
    "Verif.C69_bad_string",
    "Verif.C69_null",
    "Verif.C69_keywords",
    "Verif.C69_reachable",
    "Verif.C69_strict_unused",
    "Verif.C69_strict_ignored",
    "Verif.C69_lenient_false"
   ],
   "note": "False of the code for strict=False: the flag is stored on the blueprint and its layers and read nowhere (C69_strict_unused, C69_strict_ignored), so unknown names are still refused (C69_lenient_false). A string holding null gives an empty blueprint (C69_null). verbose is not modelled."
  },
  {
   "property": "C70",
   "status": "partial",
   "theorems": [
    "Verif.C70_icon",
    "Verif.C70_drop",
    "Verif.C70_order",
    "Verif.C70_refused",
    "Verif.C70_no_slots",
    "Verif.C70_number",
    "Verif.C70_schedule",
    "Verif.C70_item",
    "Verif.C70_label",
    "Verif.C70_refused_false"
   ],
   "note": "Proved for names of signals, for emptied slots, schedules, label, item and version. False of the code for icons named by numbers or None: they are accepted and the export then raises (C70_number, C70_refused_false)."
  },
  {
   "property": "C71",
   "status": "proved",
   "theorems": [
    "Verif.C71_double",
    "Verif.C71_nearest",
    "Verif.C71_vector",
    "Verif.C71_collides",
    "Verif.C71_rotate",
    "Verif.C71_recenter",
    "Verif.C71_double_order",
    "Verif.C71_extent",
    "Verif.C71_recenter_default",
    "Verif.C71_history",
    "Verif.C71_full_turn",
    "Verif.C71_false",
    "Verif.C71_extent_false"
   ],
   "note": "C71_double, C71_double_order: binary64 rounding is such a rounding; C71_nearest: it is the rounding of IEEE 754. Off the grid the claim is false: orientation 0.1 is not restored by four quarter turns (C71_false); borders just beside the grid change the extent (C71_extent_false). Corners of single entities and floor division are not covered."
  },
  {
   "property": "C72",
   "status": "proved",
   "theorems": [
    "Verif.C72_rotate",
    "Verif.C72_rotate_works",
    "Verif.C72_recenter",
    "Verif.C72_sort",
    "Verif.C72_sort_works"
   ],
   "note": "Hypothesis WellNumbered: the entities have different numbers, and wires and schedules mention only entities of the blueprint. For recenter the full claim of C40 is false of the code (it raises after moving); C72_recenter describes the export then. circuit_id is not part of RenumberedData (see C27)."
  },
  {
   "property": "C73",
   "status": "proved",
   "theorems": [
    "Verif.C73_number_iff",
    "Verif.C73_read",
    "Verif.C73_same_iff",
    "Verif.C73_number_key_false",
    "Verif.C73_string",
    "Verif.C73_both",
    "Verif.C73_null",
    "Verif.C73_ends",
    "Verif.C73_consumes"
   ],
   "note": "C73_read for every value, C73_same_iff says exactly when the value is the same, C73_number_key_false what becomes of number keys; C73_string, C73_null, C73_both (agreement with Python's reader). C73_ends and C73_consumes: every text is read to an end and the reader only moves forward. C73_number_iff: the numbers for which tonumber inverts the text that Lua 5.2 writes are the floats that have a decimal of 14 digits."
  },
  {
   "property": "C74",
   "status": "proved",
   "theorems": [
    "Verif.C74_deterministic",
    "Verif.C74_remove",
    "Verif.C74_every_other",
    "Verif.C74_false",
    "Verif.C74_all_iff",
    "Verif.C74_copy",
    "Verif.C74_visits",
    "Verif.C74_turn",
    "Verif.C74_endless"
   ],
   "note": "The property describes the code exactly; that a loop removing what it visits empties the layer is false of the code for two entities or more (C74_false, C74_every_other)."
  },
  {
   "property": "C75",
   "status": "proved",
   "theorems": [
    "Verif.C75_unique",
    "Verif.C75_written",
    "Verif.C75_wire",
    "Verif.C75_spelling",
    "Verif.C75_refused",
    "Verif.C75_import",
    "Verif.C75_accepts",
    "Verif.C75_kept"
   ],
   "note": "Spec.Spells is the grammar of the accepted texts, independent of the reader. Non-ASCII texts are refused by the grammar but outside the model (Python accepts some)."
  },
  {
   "property": "C76",
   "status": "partial",
   "theorems": [
    "Verif.C76_entity_python",
    "Verif.C76_vector_python",
    "Verif.C76_color_python",
    "Verif.C76_direction",
    "Verif.C76_vector",
    "Verif.C76_color",
    "Verif.C76_entity",
    "Verif.C76_entity_str",
    "Verif.C76_wire",
    "Verif.C76_wire_false",
    "Verif.C76_signal",
    "Verif.C76_signal_false"
   ],
   "note": "Proved for directions, vectors, colours and entities, and with the texts of floats that Python writes (C76_entity_python, \u2026). False of the code for wires, which are printed with the names of their ends only (C76_wire, C76_wire_false), and for signal ids whose name is None: printing raises KeyError (C76_signal, C76_signal_false)."
  },
  {
   "property": "C77",
   "status": "proved",
   "theorems": [
    "Verif.C77_set_iff",
    "Verif.C77_fails",
    "Verif.C77_only",
    "Verif.C77_set",
    "Verif.C77_add",
    "Verif.C77_add_new",
    "Verif.C77_add_one",
    "Verif.C77_add_again",
    "Verif.C77_usable",
    "Verif.C77_bare",
    "Verif.C77_orphaned"
   ],
   "note": "For library mixins. add_mixins of several behaviours some of which the entity already has can fail because of the order it has them in (example in Props/Behaviours); only a single one is shown to be always possible then."
  },
  {
   "property": "C78",
   "status": "partial",
   "theorems": [
    "Verif.C78_unread",
    "Verif.C78_set",
    "Verif.C78_only",
    "Verif.C78_inherits",
    "Verif.C78_frozen",
    "Verif.C78_import",
    "Verif.C78_false"
   ],
   "note": "The data of a derived class is kept (C78_set, C78_import, C78_frozen, C78_inherits) and touches nothing else (C78_only), but that it is used is false of the code: C78_unread shows that no history of calls depends on it, C78_false is a witness."
  },
  {
   "property": "C79",
   "status": "proved",
   "theorems": [
    "Verif.C79_unique",
    "Verif.C79_total",
    "Verif.C79_exact",
    "Verif.C79_order",
    "Verif.C79_accepts",
    "Verif.C79_kept",
    "Verif.C79_make",
    "Verif.C79_import",
    "Verif.C79_refused",
    "Verif.C79_shown_false"
   ],
   "note": "Decimal is the grammar of the accepted texts, Rounded the definition of round-to-nearest-even over binary64; both are independent of the reader and the rounding function. Non-ASCII texts, infinities and not a number are outside the model. That the volume is the number shown by the text is false (C79_shown_false)."
  },
  {
   "property": "C80",
   "status": "partial",
   "theorems": [
    "Verif.C80_class",
    "Verif.C80_conflict",
    "Verif.C80_others",
    "Verif.C80_like_make",
    "Verif.C80_modules",
    "Verif.C80_lost",
    "Verif.C80_assign",
    "Verif.C80_shadowed",
    "Verif.C80_modules_false",
    "Verif.C80_exports_again_partial",
    "Verif.C80_plain_exports_again_partial",
    "Verif.C80_reload_false",
    "Verif.C80_reload_partial",
    "Verif.C80_reload_string_partial",
    "Verif.C80_fits",
    "Verif.C80_fitting_exports_again_partial",
    "Verif.C80_history_partial"
   ],
   "note": "Proved: exact behaviours (C80_class), contradicting lists are refused (C80_conflict), other types are not affected (C80_others), a setting given equals the setting assigned (C80_like_make) unless Items comes before its behaviour, and always for modules (C80_modules). The rest is false of the code: C80_lost, C80_shadowed and C80_modules_false (no assembling machine with recipe and modules can be imported, whatever the custom behaviours). Exports: an entity with custom behaviours, after any calls without renaming/new prototype data, exports settings that a blueprint with the same custom behaviours takes and exports again, if nothing comes after Items and the control behaviours are those of the table (C80_exports_again_partial), for any type with one custom behaviour without control settings (C80_plain_exports_again_partial); false in general by C80_reload_false. Whole blueprints: C80_reload_partial, C80_reload_string_partial and C80_history_partial extend C35 to custom behaviours (every run without renames, new prototype data or behaviours changed by hand; entities meeting Spec.FitsIn, which C80_fits gives for entities made by a blueprint with these custom behaviours); C80_fitting_exports_again_partial does so for single entities however they were made."
  },
  {
   "property": "C81",
   "status": "proved",
   "theorems": [
    "Verif.C81_import",
    "Verif.C81_never",
    "Verif.C81_ordinary",
    "Verif.C81_each",
    "Verif.C81_construct",
    "Verif.C81_construct_data",
    "Verif.C81_export",
    "Verif.C81_entity",
    "Verif.C81_export_string",
    "Verif.C81_export_each"
   ],
   "note": "C81_import and C81_never hold for every JSON value and every state, up to inputs outside the model (Exc.unmodelled). C81_ordinary and C81_construct_data bound these: data with ordinary values (Spec.Ordinary: coordinates are numbers, entity numbers integers, positions given, numbers in texts ASCII, ...) imported into an empty blueprint without custom behaviours are never outside the model. Exports are never outside the model (C81_export, C81_entity, C81_export_string). Every kind occurs: C81_each, C81_export_each."
  },
  {
   "property": "C82",
   "status": "proved",
   "theorems": [
    "Verif.C82_reads",
    "Verif.C82_unique",
    "Verif.C82_writes",
    "Verif.C82_refuses",
    "Verif.C82_number",
    "Verif.C82_base64",
    "Verif.C82_base64_read",
    "Verif.C82_line_breaks",
    "Verif.C82_other_programs",
    "Verif.C82_decode",
    "Verif.C82_decoded",
    "Verif.C82_import",
    "Verif.C82_other_import",
    "Verif.C82_layout"
   ],
   "note": "C82_reads (both directions, Spec/Json is the grammar), C82_number (floats), C82_base64 and C82_base64_read (Spec/Base64), C82_other_programs (any compressor: the hypothesis is only that the bytes are decompressed to the UTF-8 of the text). NaN, infinities, floats that are too large and lone surrogates, which Python's json accepts beyond RFC 8259, are outside the model (Exc.unmodelled)."
  },
  {
   "property": "C83",
   "status": "proved",
   "theorems": [
    "Verif.C83_entity",
    "Verif.C83_control",
    "Verif.C83_own_controls",
    "Verif.C83_import",
    "Verif.C83_slots"
   ],
   "note": "C83_entity (all classes, with custom mixins too), C83_control (control_behavior, for entities whose control behaviours are those of the table), C83_own_controls (which holds if there are no custom mixins for the type), C83_import (whole blueprints). Spec/Shown lists the forms of the settings key by key; PyEq is Python's == of JSON values. Values in other forms, numbers as operands of deciders and default values given explicitly are outside of the property: see C03, C27, C34, C52 and C57. C83_slots: the slot of a filter has to be given, by a value that can be a key."
  },
  {
   "property": "C84",
   "status": "proved",
   "theorems": [
    "Verif.C84_import",
    "Verif.C84_export",
    "Verif.C84_string"
   ],
   "note": "C84_import (recorded wires = described wires), C84_export (Redrawn: entities, references with their number, schedules of the export against the imported data, with the settings of C83), C84_string (constructor with an exchange string, exported as a string). Entries are addressed by place, not by objects of the model. The connector of the far end inside exported references is left out, C27 shows it wrong in general."
  },
  {
   "property": "C85",
   "status": "proved",
   "theorems": [
    "Verif.C85_import",
    "Verif.C85_string"
   ],
   "note": "C85_import and C85_string, both directions. Spec/Accept says part by part what is good; which entity data are good is the parameter makes, instantiated with entities.make (layerMake) on the same blueprint. That there must be no tiles is a defect of the code (C42), stated here as it is. Inputs outside the model (Exc.unmodelled) count as not accepted on both sides."
  },
  {
   "property": "C86",
   "status": "proved",
   "theorems": [
    "Verif.C86_blend",
    "Verif.C86_blame"
   ],
   "note": "C86_blend (entity data put together from two accepted ones, control_behavior key by key) and C86_blame (contrapositive, one key). The conditions of a combinator count as one value. Inputs outside the model (Exc.unmodelled) count as not accepted, so nothing is claimed about data from which the model does not make an entity."
  },
  {
   "property": "C87",
   "status": "proved",
   "theorems": [
    "Verif.C87_entity",
    "Verif.C87_import",
    "Verif.C87_own_controls",
    "Verif.C87_false"
   ],
   "note": "C87_import (blueprint, both directions) and C87_entity (one entity as long as it is not changed); C87_own_controls discharges the hypothesis on custom behaviours. C87_false: an accumulator with an empty signal name and an icon with a number are imported but cannot be exported (KeyError, AttributeError), so the stronger claim that every accepted blueprint can be exported is false of the code. Custom mixins that change the control behaviours of a type are outside (OwnControls)."
  },
  {
   "property": "C88",
   "status": "proved",
   "theorems": [
    "Verif.C88_make",
    "Verif.C88_import"
   ],
   "note": "C88_make (one entity) and C88_import (with C85), both directions. Restricted to blueprints with at most one custom mixin for each type, out of those without control behaviour and without Items (PlainCustom). Inputs outside the model (Exc.unmodelled) count as refused on both sides although the code takes some of them: coordinates that are no numbers, entities without position, names that are no texts with strict false, entity numbers that are not whole numbers, digits outside ASCII, infinite volumes."
  },
  {
   "property": "C89",
   "status": "partial",
   "theorems": [
    "Verif.C89_kept",
    "Verif.C89_no_object",
    "Verif.C89_entity_partial",
    "Verif.C89_schedules_partial",
    "Verif.C89_head_partial",
    "Verif.C89_rest_partial",
    "Verif.C89_false"
   ],
   "note": "False of the code (C89_false: a belt before an unknown entity stays in the blueprint). C89_kept and C89_no_object hold for all data; C89_entity_partial describes the state exactly if an entity is the first thing to be refused. C89_schedules_partial: the schedules stay. C89_head_partial: a refused label colour or icon changes nothing but the head. C89_rest_partial: refusals after the entities (wires, tiles, schedules) leave all entities in, sorted and numbered; which wires were made by then is not described."
  },
  {
   "property": "C90",
   "status": "partial",
   "theorems": [
    "Verif.C90_other_partial",
    "Verif.C90_skip_partial",
    "Verif.C90_false",
    "Verif.C90_all_false",
    "Verif.C90_reads_partial",
    "Verif.C90_entity_partial",
    "Verif.C90_label_partial",
    "Verif.C90_protos_partial",
    "Verif.C90_moves_partial",
    "Verif.C90_parse_partial"
   ],
   "note": "False of the code for sixteen kinds of calls (C90_false has a reachable witness for each of them, C90_all_false). C90_other_partial: every other call of the model, on every reachable state, raises before it changes anything; the list of kinds is therefore exact. C90_skip_partial: a history reaches the same state without the refused calls of the other kinds. What refused calls of these kinds leave: C90_reads_partial (exports: only the order of the ends of wires), C90_entity_partial (names and settings: only that entity's name or settings), C90_label_partial (only the label), C90_protos_partial (only prototype data); C90_moves_partial (rotating and recentering: only position, direction and orientation of the entities in question), C90_parse_partial (only the wires of that blueprint); for imports see C89. The witnesses of C90_false meet their hypotheses. Calls are those of Op (Model/Blueprint); the caller's data are not part of the state (see C36)."
  },
  {
   "property": "C91",
   "status": "proved",
   "theorems": [
    "Verif.C91_make",
    "Verif.C91_import",
    "Verif.C91_append",
    "Verif.C91_export",
    "Verif.C91_assign",
    "Verif.C91_trans",
    "Verif.C91_types_needed"
   ],
   "note": "C91_make and C91_import, from C88; C91_export, from C87 (entities with the control behaviours of the table for their type); C91_assign, from C52 (strict entities without custom behaviours, settings other than those of the control behaviour); C91_append and C91_trans: appending extends; C91_types_needed: an entity that gets another type may be refused. Restricted like C88 to blueprints with at most one custom mixin for each type, out of those without control behaviour and without Items; inputs outside the model count as refused."
  }
 ]
}