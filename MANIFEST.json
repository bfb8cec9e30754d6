{
 "claims": [
  {
   "property": "C01",
   "status": "proved",
   "theorems": [
    "RdfTypes.Property.C01_btree_dataset"
   ],
   "note": ""
  },
  {
   "property": "C02",
   "status": "proved",
   "theorems": [
    "RdfTypes.Property.C02_btree_graph"
   ],
   "note": ""
  },
  {
   "property": "C03",
   "status": "proved",
   "theorems": [
    "RdfTypes.Property.C03_indexed_dataset"
   ],
   "note": ""
  },
  {
   "property": "C04",
   "status": "proved",
   "theorems": [
    "RdfTypes.Property.C04_indexed_graph"
   ],
   "note": ""
  },
  {
   "property": "C05",
   "status": "proved",
   "theorems": [
    "RdfTypes.Property.C05_insert_remove_report"
   ],
   "note": ""
  },
  {
   "property": "C06",
   "status": "proved",
   "theorems": [
    "RdfTypes.Property.C06_iteration"
   ],
   "note": ""
  },
  {
   "property": "C07",
   "status": "proved",
   "theorems": [
    "RdfTypes.Property.C07_len"
   ],
   "note": ""
  },
  {
   "property": "C08",
   "status": "proved",
   "theorems": [
    "RdfTypes.Property.C08_equality"
   ],
   "note": ""
  },
  {
   "property": "C09",
   "status": "proved",
   "theorems": [
    "RdfTypes.Property.C09_order"
   ],
   "note": ""
  },
  {
   "property": "C10",
   "status": "proved",
   "theorems": [
    "RdfTypes.Property.C10_hash",
    "RdfTypes.Property.C10_tells_apart"
   ],
   "note": ""
  },
  {
   "property": "C11",
   "status": "proved",
   "theorems": [
    "RdfTypes.Property.C11_collect"
   ],
   "note": ""
  },
  {
   "property": "C12",
   "status": "proved",
   "theorems": [
    "RdfTypes.Property.C12_into_iter"
   ],
   "note": ""
  },
  {
   "property": "C13",
   "status": "proved",
   "theorems": [
    "RdfTypes.Property.C13_resources"
   ],
   "note": ""
  },
  {
   "property": "C14",
   "status": "partial",
   "theorems": [
    "RdfTypes.Property.C14_known_repeats_partial",
    "RdfTypes.Property.C14_insert_only_partial",
    "RdfTypes.Property.C14_false"
   ],
   "note": "the code violates the claim when a statement repeating a new resource is removed; proved for histories without such an insertion, and for insertions only"
  },
  {
   "property": "C15",
   "status": "partial",
   "theorems": [
    "RdfTypes.Property.C15_known_repeats_partial",
    "RdfTypes.Property.C15_false"
   ],
   "note": "the code violates the claim when a statement repeating a new resource is inserted; proved otherwise"
  },
  {
   "property": "C16",
   "status": "proved",
   "theorems": [
    "RdfTypes.Property.C16_conversion"
   ],
   "note": ""
  },
  {
   "property": "C17",
   "status": "proved",
   "theorems": [
    "RdfTypes.Property.C17_positions_sound"
   ],
   "note": ""
  },
  {
   "property": "C18",
   "status": "partial",
   "theorems": [
    "RdfTypes.Property.C18_last_with_partial",
    "RdfTypes.Property.C18_each_once_partial",
    "RdfTypes.Property.C18_false",
    "RdfTypes.Property.C18_twice_false"
   ],
   "note": "the code violates the claim when a removed statement shares a term with another one; proved otherwise; C63 and C72 say exactly what is listed"
  },
  {
   "property": "C19",
   "status": "partial",
   "theorems": [
    "RdfTypes.Property.C19_names_apart_partial",
    "RdfTypes.Property.C19_insert_only_partial",
    "RdfTypes.Property.C19_complete_partial",
    "RdfTypes.Property.C19_bounds_partial",
    "RdfTypes.Property.C19_false",
    "RdfTypes.Property.C19_reused_false"
   ],
   "note": "the code violates the claim, and panics, when graph names are also used elsewhere; proved otherwise, and bounds on what is listed after any history; C64 and C72 say exactly what is listed until a slot that dangles is reused, C92 after every history"
  },
  {
   "property": "C20",
   "status": "proved",
   "theorems": [
    "RdfTypes.Property.C20_sound"
   ],
   "note": ""
  },
  {
   "property": "C21",
   "status": "partial",
   "theorems": [
    "RdfTypes.Property.C21_given_subject_partial",
    "RdfTypes.Property.C21_at_peak_partial",
    "RdfTypes.Property.C21_false"
   ],
   "note": "the code violates the claim at vacant slots and when a new resource is inserted twice in one statement; proved for patterns giving the subject, and for all patterns at the largest size; C65, C71 and C76 say exactly what is yielded"
  },
  {
   "property": "C22",
   "status": "partial",
   "theorems": [
    "RdfTypes.Property.C22_sound_partial",
    "RdfTypes.Property.C22_complete_partial",
    "RdfTypes.Property.C22_false"
   ],
   "note": "soundness proved; completeness false as for C21, proved in the same cases; C65, C71 and C76 say exactly what is yielded"
  },
  {
   "property": "C23",
   "status": "partial",
   "theorems": [
    "RdfTypes.Property.C23_extracts_partial",
    "RdfTypes.Property.C23_nothing_left_partial",
    "RdfTypes.Property.C23_false"
   ],
   "note": "proved except that no quad left matches, which is false as for C21 and proved in the same cases; C66 and C71 say exactly what is taken out"
  },
  {
   "property": "C24",
   "status": "partial",
   "theorems": [
    "RdfTypes.Property.C24_any_history_partial",
    "RdfTypes.Property.C24_default_graph_partial",
    "RdfTypes.Property.C24_named_graph_partial",
    "RdfTypes.Property.C24_named_graph_insert_only_partial",
    "RdfTypes.Property.C24_false"
   ],
   "note": "the code returns Some for an empty default graph and for stale graph names; proved otherwise; C64, C72 and C92 say exactly when"
  },
  {
   "property": "C25",
   "status": "partial",
   "theorems": [
    "RdfTypes.Property.C25_statement_partial",
    "RdfTypes.Property.C25_true_only_partial",
    "RdfTypes.Property.C25_given_subject_partial",
    "RdfTypes.Property.C25_at_peak_partial",
    "RdfTypes.Property.C25_false"
   ],
   "note": "contains_quad/contains_triple proved; for the others a false answer can be wrong, as for C21; proved in the same cases; C67 and C71 say exactly when"
  },
  {
   "property": "C26",
   "status": "partial",
   "theorems": [
    "RdfTypes.Property.C26_sound_partial",
    "RdfTypes.Property.C26_objects_partial",
    "RdfTypes.Property.C26_predicates_partial",
    "RdfTypes.Property.C26_false"
   ],
   "note": "soundness proved; completeness false as for C14 and C18, proved for the histories these defects do not reach; C73 says exactly what is yielded"
  },
  {
   "property": "C27",
   "status": "proved",
   "theorems": [
    "RdfTypes.Property.C27_quads",
    "RdfTypes.Property.C27_matching",
    "RdfTypes.Property.C27_indexed_graph",
    "RdfTypes.Property.C27_listings"
   ],
   "note": ""
  },
  {
   "property": "C28",
   "status": "proved",
   "theorems": [
    "RdfTypes.Property.C28_triple_pattern"
   ],
   "note": ""
  },
  {
   "property": "C29",
   "status": "proved",
   "theorems": [
    "RdfTypes.Property.C29_quad_pattern"
   ],
   "note": ""
  },
  {
   "property": "C30",
   "status": "proved",
   "theorems": [
    "RdfTypes.Property.C30_from_statements"
   ],
   "note": ""
  },
  {
   "property": "C31",
   "status": "proved",
   "theorems": [
    "RdfTypes.Property.C31_parts",
    "RdfTypes.Property.C31_into_triple",
    "RdfTypes.Property.C31_filter_triple",
    "RdfTypes.Property.C31_ids"
   ],
   "note": ""
  },
  {
   "property": "C32",
   "status": "proved",
   "theorems": [
    "RdfTypes.Property.C32_graph_part"
   ],
   "note": ""
  },
  {
   "property": "C33",
   "status": "proved",
   "theorems": [
    "RdfTypes.Property.C33_set_subject"
   ],
   "note": ""
  },
  {
   "property": "C34",
   "status": "partial",
   "theorems": [
    "RdfTypes.Property.C34_set_predicate_partial",
    "RdfTypes.Property.C34_forgets",
    "RdfTypes.Property.C34_false"
   ],
   "note": "the code violates the claim on the pattern ?x ?y ?x; proved for all others"
  },
  {
   "property": "C35",
   "status": "partial",
   "theorems": [
    "RdfTypes.Property.C35_set_object_partial",
    "RdfTypes.Property.C35_forgets",
    "RdfTypes.Property.C35_wrong_report",
    "RdfTypes.Property.C35_false"
   ],
   "note": "the code violates the claim on ?x p ?x and misreports SameAsPredicate; proved for all others"
  },
  {
   "property": "C36",
   "status": "proved",
   "theorems": [
    "RdfTypes.Property.C36_map",
    "RdfTypes.Property.C36_map_statements",
    "RdfTypes.Property.C36_parts",
    "RdfTypes.Property.C36_map_pattern"
   ],
   "note": "the function mapped is stateless; canonical triple patterns have no map in the code"
  },
  {
   "property": "C37",
   "status": "proved",
   "theorems": [
    "RdfTypes.Property.C37_patterns",
    "RdfTypes.Property.C37_parts"
   ],
   "note": ""
  },
  {
   "property": "C38",
   "status": "partial",
   "theorems": [
    "RdfTypes.Property.C38_union_partial",
    "RdfTypes.Property.C38_counts_partial",
    "RdfTypes.Property.C38_bounds_partial",
    "RdfTypes.Property.C38_false"
   ],
   "note": "the code replaces the entries of the first map under a shared given term; proved for maps sharing none; C61 says exactly what is kept"
  },
  {
   "property": "C39",
   "status": "proved",
   "theorems": [
    "RdfTypes.Property.C39_recognised",
    "RdfTypes.Property.C39_repeated"
   ],
   "note": "for datasets that list no quad twice; with repetitions, for lists that have each quad equally often"
  },
  {
   "property": "C40",
   "status": "proved",
   "theorems": [
    "RdfTypes.Property.C40_bijection"
   ],
   "note": "also proves that no call panics"
  },
  {
   "property": "C41",
   "status": "partial",
   "theorems": [
    "RdfTypes.Property.C41_surroundings_partial",
    "RdfTypes.Property.C41_one_blank_partial",
    "RdfTypes.Property.C41_alike_partial",
    "RdfTypes.Property.C41_false"
   ],
   "note": "the code violates the claim; proved for equal quads without blank nodes and quads that share a blank node alike, or have at most one; C62 and C74 say exactly what is accepted, C79 extends the proved part to lists and trees"
  },
  {
   "property": "C42",
   "status": "proved",
   "theorems": [
    "RdfTypes.Property.C42_accepted"
   ],
   "note": ""
  },
  {
   "property": "C43",
   "status": "partial",
   "theorems": [
    "RdfTypes.Property.C43_labels_partial",
    "RdfTypes.Property.C43_false"
   ],
   "note": "the code rejects every label with an inner dot; proved for the labels without dots"
  },
  {
   "property": "C44",
   "status": "proved",
   "theorems": [
    "RdfTypes.Property.C44_numbers",
    "RdfTypes.Property.C44_suffix"
   ],
   "note": ""
  },
  {
   "property": "C45",
   "status": "proved",
   "theorems": [
    "RdfTypes.Property.C45_distinct",
    "RdfTypes.Property.C45_constructors",
    "RdfTypes.Property.C45_valid",
    "RdfTypes.Property.C45_apart",
    "RdfTypes.Property.C45_apart_no_digit",
    "RdfTypes.Property.C45_unchecked_prefix"
   ],
   "note": "a counter overflow is a panic; C45_unchecked_prefix exhibits an invalid label from an invalid prefix"
  },
  {
   "property": "C46",
   "status": "proved",
   "theorems": [
    "RdfTypes.Property.C46_strings",
    "RdfTypes.Property.C46_injective"
   ],
   "note": ""
  },
  {
   "property": "C47",
   "status": "proved",
   "theorems": [
    "RdfTypes.Property.C47_iris",
    "RdfTypes.Property.C47_escapes",
    "RdfTypes.Property.C47_lossless"
   ],
   "note": "C47_escapes records that the escapes for other characters, in no valid IRI, are malformed"
  },
  {
   "property": "C48",
   "status": "proved",
   "theorems": [
    "RdfTypes.Property.C48_literals",
    "RdfTypes.Property.C48_forms"
   ],
   "note": ""
  },
  {
   "property": "C49",
   "status": "partial",
   "theorems": [
    "RdfTypes.Property.C49_ground_partial",
    "RdfTypes.Property.C49_blank_as_string",
    "RdfTypes.Property.C49_false"
   ],
   "note": "the code displays a blank node as a string literal; proved for the other terms"
  },
  {
   "property": "C50",
   "status": "proved",
   "theorems": [
    "RdfTypes.Property.C50_containers"
   ],
   "note": "reading back is for statements without blank nodes, as C49 is false"
  },
  {
   "property": "C51",
   "status": "proved",
   "theorems": [
    "RdfTypes.Property.C51_equality",
    "RdfTypes.Property.C51_lexicographic",
    "RdfTypes.Property.C51_default_graph_first",
    "RdfTypes.Property.C51_agrees",
    "RdfTypes.Property.C51_total"
   ],
   "note": ""
  },
  {
   "property": "C52",
   "status": "proved",
   "theorems": [
    "RdfTypes.Property.C52_equality",
    "RdfTypes.Property.C52_order",
    "RdfTypes.Property.C52_accessors",
    "RdfTypes.Property.C52_conversions",
    "RdfTypes.Property.C52_round_trips",
    "RdfTypes.Property.C52_copies"
   ],
   "note": "the crate has no TryFrom implementations; hashes of the forms are compared in C53_hash_partial"
  },
  {
   "property": "C53",
   "status": "partial",
   "theorems": [
    "RdfTypes.Property.C53_hash_partial",
    "RdfTypes.Property.C53_hash_parts",
    "RdfTypes.Property.C53_hash_distinct",
    "RdfTypes.Property.C53_blank_ids_partial",
    "RdfTypes.Property.C53_false",
    "RdfTypes.Property.C53_literal_hash"
   ],
   "note": "Borrow<str> for Literal and LiteralRef is inconsistent in equality, order and hash; proved otherwise"
  },
  {
   "property": "C54",
   "status": "proved",
   "theorems": [
    "RdfTypes.Property.C54_unit",
    "RdfTypes.Property.C54_local",
    "RdfTypes.Property.C54_kinds",
    "RdfTypes.Property.C54_listing",
    "RdfTypes.Property.C54_lexical"
   ],
   "note": ""
  },
  {
   "property": "C55",
   "status": "proved",
   "theorems": [
    "RdfTypes.Property.C55_as_underlying",
    "RdfTypes.Property.C55_as_underlying_local",
    "RdfTypes.Property.C55_created",
    "RdfTypes.Property.C55_created_local",
    "RdfTypes.Property.C55_blank",
    "RdfTypes.Property.C55_lexical",
    "RdfTypes.Property.C55_lexical_blank",
    "RdfTypes.Property.C55_into_parts"
   ],
   "note": "the unit interpretation is not LocalInterpretationMut in the code: with a Blank generator it is LocalGeneratorInterpretation"
  },
  {
   "property": "C56",
   "status": "proved",
   "theorems": [
    "RdfTypes.Property.C56_containers",
    "RdfTypes.Property.C56_lexical",
    "RdfTypes.Property.C56_quads",
    "RdfTypes.Property.C56_triples",
    "RdfTypes.Property.C56_resource_or_var",
    "RdfTypes.Property.C56_literals",
    "RdfTypes.Property.C56_terms",
    "RdfTypes.Property.C56_strings",
    "RdfTypes.Property.C56_local_terms",
    "RdfTypes.Property.C56_unchecked",
    "RdfTypes.Property.C56_borrowed"
   ],
   "note": "blank node labels are those BlankIdBuf::new accepts; C56_unchecked says what happens to the others"
  },
  {
   "property": "C57",
   "status": "partial",
   "theorems": [
    "RdfTypes.Property.C57_iterators",
    "RdfTypes.Property.C57_containers",
    "RdfTypes.Property.C57_membership",
    "RdfTypes.Property.C57_errors",
    "RdfTypes.Property.C57_true_only_partial",
    "RdfTypes.Property.C57_exact_partial",
    "RdfTypes.Property.C57_false",
    "RdfTypes.Property.C57_new_resource"
   ],
   "note": "try_contains_triple of an indexed container may deny a triple that contains_triple finds; proved otherwise; C73 says exactly when"
  },
  {
   "property": "C58",
   "status": "proved",
   "theorems": [
    "RdfTypes.Property.C58_plain_display"
   ],
   "note": ""
  },
  {
   "property": "C59",
   "status": "proved",
   "theorems": [
    "RdfTypes.Property.C59_statements",
    "RdfTypes.Property.C59_unambiguous",
    "RdfTypes.Property.C59_panics",
    "RdfTypes.Property.C59_compiles"
   ],
   "note": "labels of blank nodes are those the crate accepts (C43)"
  },
  {
   "property": "C60",
   "status": "partial",
   "theorems": [
    "RdfTypes.Property.C60_pattern_partial",
    "RdfTypes.Property.C60_false"
   ],
   "note": "no pattern with a constant compiles; proved for variables and terms held by variables; C86 says exactly what compiles"
  },
  {
   "property": "C61",
   "status": "proved",
   "theorems": [
    "RdfTypes.Property.C61_union"
   ],
   "note": ""
  },
  {
   "property": "C62",
   "status": "proved",
   "theorems": [
    "RdfTypes.Property.C62_exact"
   ],
   "note": ""
  },
  {
   "property": "C63",
   "status": "proved",
   "theorems": [
    "RdfTypes.Property.C63_last_added"
   ],
   "note": ""
  },
  {
   "property": "C64",
   "status": "proved",
   "theorems": [
    "RdfTypes.Property.C64_once_named",
    "RdfTypes.Property.C64_panics",
    "RdfTypes.Property.C64_remove_graph"
   ],
   "note": ""
  },
  {
   "property": "C65",
   "status": "proved",
   "theorems": [
    "RdfTypes.Property.C65_places",
    "RdfTypes.Property.C65_every_history"
   ],
   "note": ""
  },
  {
   "property": "C66",
   "status": "proved",
   "theorems": [
    "RdfTypes.Property.C66_extracts_what_is_found"
   ],
   "note": ""
  },
  {
   "property": "C67",
   "status": "proved",
   "theorems": [
    "RdfTypes.Property.C67_first_place"
   ],
   "note": ""
  },
  {
   "property": "C68",
   "status": "proved",
   "theorems": [
    "RdfTypes.Property.C68_set_subject",
    "RdfTypes.Property.C68_set_predicate",
    "RdfTypes.Property.C68_set_object",
    "RdfTypes.Property.C68_reports"
   ],
   "note": ""
  },
  {
   "property": "C69",
   "status": "proved",
   "theorems": [
    "RdfTypes.Property.C69_same_statements",
    "RdfTypes.Property.C69_same_up_to_names",
    "RdfTypes.Property.C69_all_forms"
   ],
   "note": ""
  },
  {
   "property": "C70",
   "status": "proved",
   "theorems": [
    "RdfTypes.Property.C70_lists",
    "RdfTypes.Property.C70_occurrences",
    "RdfTypes.Property.C70_counts",
    "RdfTypes.Property.C70_every_history"
   ],
   "note": ""
  },
  {
   "property": "C71",
   "status": "proved",
   "theorems": [
    "RdfTypes.Property.C71_searches",
    "RdfTypes.Property.C71_membership",
    "RdfTypes.Property.C71_statements",
    "RdfTypes.Property.C71_terms",
    "RdfTypes.Property.C71_every_history"
   ],
   "note": ""
  },
  {
   "property": "C72",
   "status": "proved",
   "theorems": [
    "RdfTypes.Property.C72_dataset_lists",
    "RdfTypes.Property.C72_graph_lists",
    "RdfTypes.Property.C72_names",
    "RdfTypes.Property.C72_names_panic",
    "RdfTypes.Property.C72_panic_stays",
    "RdfTypes.Property.C72_remove_graph",
    "RdfTypes.Property.C72_remove_graph_some",
    "RdfTypes.Property.C72_every_history"
   ],
   "note": ""
  },
  {
   "property": "C73",
   "status": "proved",
   "theorems": [
    "RdfTypes.Property.C73_objects",
    "RdfTypes.Property.C73_predicates",
    "RdfTypes.Property.C73_try_contains"
   ],
   "note": ""
  },
  {
   "property": "C74",
   "status": "proved",
   "theorems": [
    "RdfTypes.Property.C74_exact",
    "RdfTypes.Property.C74_equivalence",
    "RdfTypes.Property.C74_renaming",
    "RdfTypes.Property.C74_order"
   ],
   "note": ""
  },
  {
   "property": "C75",
   "status": "proved",
   "theorems": [
    "RdfTypes.Property.C75_bijection",
    "RdfTypes.Property.C75_exact",
    "RdfTypes.Property.C75_equivalence",
    "RdfTypes.Property.C75_replaced",
    "RdfTypes.Property.C75_order",
    "RdfTypes.Property.C75_names_agree",
    "RdfTypes.Property.C75_false"
   ],
   "note": ""
  },
  {
   "property": "C76",
   "status": "proved",
   "theorems": [
    "RdfTypes.Property.C76_walks",
    "RdfTypes.Property.C76_walks_terms",
    "RdfTypes.Property.C76_one_walk",
    "RdfTypes.Property.C76_yields",
    "RdfTypes.Property.C76_stops",
    "RdfTypes.Property.C76_tests"
   ],
   "note": ""
  },
  {
   "property": "C77",
   "status": "proved",
   "theorems": [
    "RdfTypes.Property.C77_every_search",
    "RdfTypes.Property.C77_one_place",
    "RdfTypes.Property.C77_in_order"
   ],
   "note": "the model of the trees fails unless the comparator answers in order on all items, so that every theorem saying that a method does not fail says so of each search the method makes"
  },
  {
   "property": "C78",
   "status": "proved",
   "theorems": [
    "RdfTypes.Property.C78_first",
    "RdfTypes.Property.C78_first_terms",
    "RdfTypes.Property.C78_one",
    "RdfTypes.Property.C78_order",
    "RdfTypes.Property.C78_order_terms",
    "RdfTypes.Property.C78_identity"
   ],
   "note": ""
  },
  {
   "property": "C79",
   "status": "proved",
   "theorems": [
    "RdfTypes.Property.C79_exact",
    "RdfTypes.Property.C79_decides",
    "RdfTypes.Property.C79_kinds",
    "RdfTypes.Property.C79_needed"
   ],
   "note": ""
  },
  {
   "property": "C80",
   "status": "proved",
   "theorems": [
    "RdfTypes.Property.C80_terms",
    "RdfTypes.Property.C80_confused",
    "RdfTypes.Property.C80_containers"
   ],
   "note": "the exact complement of C49 and C50"
  },
  {
   "property": "C81",
   "status": "proved",
   "theorems": [
    "RdfTypes.Property.C81_recognised",
    "RdfTypes.Property.C81_exact",
    "RdfTypes.Property.C81_decides"
   ],
   "note": ""
  },
  {
   "property": "C82",
   "status": "proved",
   "theorems": [
    "RdfTypes.Property.C82_contents",
    "RdfTypes.Property.C82_same",
    "RdfTypes.Property.C82_resources",
    "RdfTypes.Property.C82_terms"
   ],
   "note": ""
  },
  {
   "property": "C83",
   "status": "proved",
   "theorems": [
    "RdfTypes.Property.C83_terms",
    "RdfTypes.Property.C83_unambiguous",
    "RdfTypes.Property.C83_statements",
    "RdfTypes.Property.C83_containers",
    "RdfTypes.Property.C83_lexical"
   ],
   "note": ""
  },
  {
   "property": "C84",
   "status": "proved",
   "theorems": [
    "RdfTypes.Property.C84_common",
    "RdfTypes.Property.C84_making",
    "RdfTypes.Property.C84_resources",
    "RdfTypes.Property.C84_indexed_dataset",
    "RdfTypes.Property.C84_indexed_graph",
    "RdfTypes.Property.C84_isomorphism"
   ],
   "note": ""
  },
  {
   "property": "C85",
   "status": "proved",
   "theorems": [
    "RdfTypes.Property.C85_dataset",
    "RdfTypes.Property.C85_graph",
    "RdfTypes.Property.C85_derived"
   ],
   "note": ""
  },
  {
   "property": "C86",
   "status": "proved",
   "theorems": [
    "RdfTypes.Property.C86_exact",
    "RdfTypes.Property.C86_unambiguous"
   ],
   "note": ""
  },
  {
   "property": "C87",
   "status": "proved",
   "theorems": [
    "RdfTypes.Property.C87_terms",
    "RdfTypes.Property.C87_borrowed",
    "RdfTypes.Property.C87_statements",
    "RdfTypes.Property.C87_unchanged",
    "RdfTypes.Property.C87_misread"
   ],
   "note": ""
  },
  {
   "property": "C88",
   "status": "proved",
   "theorems": [
    "RdfTypes.Property.C88_terms",
    "RdfTypes.Property.C88_statements",
    "RdfTypes.Property.C88_containers"
   ],
   "note": ""
  },
  {
   "property": "C89",
   "status": "proved",
   "theorems": [
    "RdfTypes.Property.C89_places",
    "RdfTypes.Property.C89_map",
    "RdfTypes.Property.C89_map2",
    "RdfTypes.Property.C89_statements",
    "RdfTypes.Property.C89_map_all",
    "RdfTypes.Property.C89_pure",
    "RdfTypes.Property.C89_calls"
   ],
   "note": ""
  },
  {
   "property": "C90",
   "status": "proved",
   "theorems": [
    "RdfTypes.Property.C90_renaming_dataset",
    "RdfTypes.Property.C90_renaming_graph",
    "RdfTypes.Property.C90_renaming_indexed",
    "RdfTypes.Property.C90_renaming_indexed_graph",
    "RdfTypes.Property.C90_renaming_conversion",
    "RdfTypes.Property.C90_renaming_graph_conversion",
    "RdfTypes.Property.C90_classes",
    "RdfTypes.Property.C90_sets",
    "RdfTypes.Property.C90_spelling",
    "RdfTypes.Property.C90_spelling_conversion"
   ],
   "note": ""
  },
  {
   "property": "C91",
   "status": "proved",
   "theorems": [
    "RdfTypes.Property.C91_kept",
    "RdfTypes.Property.C91_returned",
    "RdfTypes.Property.C91_conversion"
   ],
   "note": ""
  },
  {
   "property": "C92",
   "status": "proved",
   "theorems": [
    "RdfTypes.Property.C92_every_history",
    "RdfTypes.Property.C92_contents",
    "RdfTypes.Property.C92_dataset_lists",
    "RdfTypes.Property.C92_graph_lists",
    "RdfTypes.Property.C92_names",
    "RdfTypes.Property.C92_remove_graph"
   ],
   "note": ""
  },
  {
   "property": "C93",
   "status": "proved",
   "theorems": [
    "RdfTypes.Property.C93_statements",
    "RdfTypes.Property.C93_resources",
    "RdfTypes.Property.C93_dataset_lists",
    "RdfTypes.Property.C93_graph_lists",
    "RdfTypes.Property.C93_around"
   ],
   "note": ""
  },
  {
   "property": "C94",
   "status": "proved",
   "theorems": [
    "RdfTypes.Property.C94_session",
    "RdfTypes.Property.C94_conversion",
    "RdfTypes.Property.C94_iteration"
   ],
   "note": "the linked list of the crate slab is written from memory and was not compared with the text of the crate, which is not in /repo"
  },
  {
   "property": "C95",
   "status": "proved",
   "theorems": [
    "RdfTypes.Property.C95_prints",
    "RdfTypes.Property.C95_one_line",
    "RdfTypes.Property.C95_lines",
    "RdfTypes.Property.C95_same",
    "RdfTypes.Property.C95_apart",
    "RdfTypes.Property.C95_numbers"
   ],
   "note": ""
  },
  {
   "property": "C96",
   "status": "proved",
   "theorems": [
    "RdfTypes.Property.C96_one_line",
    "RdfTypes.Property.C96_lines",
    "RdfTypes.Property.C96_strings",
    "RdfTypes.Property.C96_apart",
    "RdfTypes.Property.C96_containers"
   ],
   "note": "the texts of IRIs and language tags are those of other crates and are parameters; so is the set of the characters that std prints as they are"
  },
  {
   "property": "C97",
   "status": "proved",
   "theorems": [
    "RdfTypes.Property.C97_urn",
    "RdfTypes.Property.C97_apart",
    "RdfTypes.Property.C97_random",
    "RdfTypes.Property.C97_repeats",
    "RdfTypes.Property.C97_new_resource"
   ],
   "note": "the file does not compile with its features as written, the model is of what its functions say; the crate uuid is a parameter"
  },
  {
   "property": "C98",
   "status": "proved",
   "theorems": [
    "RdfTypes.Property.C98_one_line",
    "RdfTypes.Property.C98_lines",
    "RdfTypes.Property.C98_apart",
    "RdfTypes.Property.C98_matches"
   ],
   "note": "the texts of terms and variables are parameters"
  },
  {
   "property": "C99",
   "status": "proved",
   "theorems": [
    "RdfTypes.Property.C99_positions",
    "RdfTypes.Property.C99_total",
    "RdfTypes.Property.C99_matches",
    "RdfTypes.Property.C99_first"
   ],
   "note": "the order of terms is a parameter; partial_cmp is taken to be cmp, as for any type with a total order"
  },
  {
   "property": "C100",
   "status": "proved",
   "theorems": [
    "RdfTypes.Property.C100_apart",
    "RdfTypes.Property.C100_matches",
    "RdfTypes.Property.C100_exchanged"
   ],
   "note": "what terms and variables write is a parameter"
  }
 ]
}
