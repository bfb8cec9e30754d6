#!/usr/bin/env python3
"""Writes MANIFEST.json from the table below and checks that each named theorem exists."""
import json, re, pathlib
root = pathlib.Path(__file__).resolve().parent.parent
N = "RdfTypes.Property."
CLAIMS = [
    ("C01", "proved", ["C01_btree_dataset"], ""),
    ("C02", "proved", ["C02_btree_graph"], ""),
    ("C03", "proved", ["C03_indexed_dataset"], ""),
    ("C04", "proved", ["C04_indexed_graph"], ""),
    ("C05", "proved", ["C05_insert_remove_report"], ""),
    ("C06", "proved", ["C06_iteration"], ""),
    ("C07", "proved", ["C07_len"], ""),
    ("C08", "proved", ["C08_equality"], ""),
    ("C09", "proved", ["C09_order"], ""),
    ("C10", "proved", ["C10_hash", "C10_tells_apart"], ""),
    ("C11", "proved", ["C11_collect"], ""),
    ("C12", "proved", ["C12_into_iter"], ""),
    ("C13", "proved", ["C13_resources"], ""),
    ("C14", "partial", ["C14_known_repeats_partial", "C14_insert_only_partial", "C14_false"],
     "the code violates the claim when a statement repeating a new resource is removed; proved for histories without such an insertion, and for insertions only"),
    ("C15", "partial", ["C15_known_repeats_partial", "C15_false"],
     "the code violates the claim when a statement repeating a new resource is inserted; proved otherwise"),
    ("C16", "proved", ["C16_conversion"], ""),
    ("C17", "proved", ["C17_positions_sound"], ""),
    ("C18", "partial", ["C18_last_with_partial", "C18_each_once_partial", "C18_false", "C18_twice_false"],
     "the code violates the claim when a removed statement shares a term with another one; proved otherwise; C63 and C72 say exactly what is listed"),
    ("C19", "partial", ["C19_names_apart_partial", "C19_insert_only_partial", "C19_complete_partial", "C19_bounds_partial", "C19_false", "C19_reused_false"],
     "the code violates the claim, and panics, when graph names are also used elsewhere; proved otherwise, and bounds on what is listed after any history; C64 and C72 say exactly what is listed until a slot that dangles is reused, C92 after every history"),
    ("C20", "proved", ["C20_sound"], ""),
    ("C21", "partial", ["C21_given_subject_partial", "C21_at_peak_partial", "C21_false"],
     "the code violates the claim at vacant slots and when a new resource is inserted twice in one statement; proved for patterns giving the subject, and for all patterns at the largest size; C65, C71 and C76 say exactly what is yielded"),
    ("C22", "partial", ["C22_sound_partial", "C22_complete_partial", "C22_false"],
     "soundness proved; completeness false as for C21, proved in the same cases; C65, C71 and C76 say exactly what is yielded"),
    ("C23", "partial", ["C23_extracts_partial", "C23_nothing_left_partial", "C23_false"],
     "proved except that no quad left matches, which is false as for C21 and proved in the same cases; C66 and C71 say exactly what is taken out"),
    ("C24", "partial", ["C24_any_history_partial", "C24_default_graph_partial", "C24_named_graph_partial", "C24_named_graph_insert_only_partial", "C24_false"],
     "the code returns Some for an empty default graph and for stale graph names; proved otherwise; C64, C72 and C92 say exactly when"),
    ("C25", "partial", ["C25_statement_partial", "C25_true_only_partial", "C25_given_subject_partial", "C25_at_peak_partial", "C25_false"],
     "contains_quad/contains_triple proved; for the others a false answer can be wrong, as for C21; proved in the same cases; C67 and C71 say exactly when"),
    ("C26", "partial", ["C26_sound_partial", "C26_objects_partial", "C26_predicates_partial", "C26_false"],
     "soundness proved; completeness false as for C14 and C18, proved for the histories these defects do not reach; C73 says exactly what is yielded"),
    ("C27", "proved", ["C27_quads", "C27_matching", "C27_indexed_graph", "C27_listings"], ""),
    ("C28", "proved", ["C28_triple_pattern"], ""),
    ("C29", "proved", ["C29_quad_pattern"], ""),
    ("C30", "proved", ["C30_from_statements"], ""),
    ("C31", "proved", ["C31_parts", "C31_into_triple", "C31_filter_triple", "C31_ids"], ""),
    ("C32", "proved", ["C32_graph_part"], ""),
    ("C33", "proved", ["C33_set_subject"], ""),
    ("C34", "partial", ["C34_set_predicate_partial", "C34_forgets", "C34_false"],
     "the code violates the claim on the pattern ?x ?y ?x; proved for all others"),
    ("C35", "partial", ["C35_set_object_partial", "C35_forgets", "C35_wrong_report", "C35_false"],
     "the code violates the claim on ?x p ?x and misreports SameAsPredicate; proved for all others"),
    ("C36", "proved", ["C36_map", "C36_map_statements", "C36_parts", "C36_map_pattern"],
     "the function mapped is stateless; canonical triple patterns have no map in the code"),
    ("C37", "proved", ["C37_patterns", "C37_parts"], ""),
    ("C38", "partial", ["C38_union_partial", "C38_counts_partial", "C38_bounds_partial", "C38_false"],
     "the code replaces the entries of the first map under a shared given term; proved for maps sharing none; C61 says exactly what is kept"),
    ("C39", "proved", ["C39_recognised", "C39_repeated"], "for datasets that list no quad twice; with repetitions, for lists that have each quad equally often"),
    ("C40", "proved", ["C40_bijection"], "also proves that no call panics"),
    ("C41", "partial", ["C41_surroundings_partial", "C41_one_blank_partial", "C41_alike_partial", "C41_false"],
     "the code violates the claim; proved for equal quads without blank nodes and quads that share a blank node alike, or have at most one; C62 and C74 say exactly what is accepted, C79 extends the proved part to lists and trees"),
    ("C42", "proved", ["C42_accepted"], ""),
    ("C43", "partial", ["C43_labels_partial", "C43_false"],
     "the code rejects every label with an inner dot; proved for the labels without dots"),
    ("C44", "proved", ["C44_numbers", "C44_suffix"], ""),
    ("C45", "proved", ["C45_distinct", "C45_constructors", "C45_valid", "C45_apart", "C45_apart_no_digit", "C45_unchecked_prefix"],
     "a counter overflow is a panic; C45_unchecked_prefix exhibits an invalid label from an invalid prefix"),
    ("C46", "proved", ["C46_strings", "C46_injective"], ""),
    ("C47", "proved", ["C47_iris", "C47_escapes", "C47_lossless"],
     "C47_escapes records that the escapes for other characters, in no valid IRI, are malformed"),
    ("C48", "proved", ["C48_literals", "C48_forms"], ""),
    ("C49", "partial", ["C49_ground_partial", "C49_blank_as_string", "C49_false"],
     "the code displays a blank node as a string literal; proved for the other terms"),
    ("C50", "proved", ["C50_containers"], "reading back is for statements without blank nodes, as C49 is false"),
    ("C51", "proved", ["C51_equality", "C51_lexicographic", "C51_default_graph_first", "C51_agrees", "C51_total"], ""),
    ("C52", "proved", ["C52_equality", "C52_order", "C52_accessors", "C52_conversions", "C52_round_trips", "C52_copies"],
     "the crate has no TryFrom implementations; hashes of the forms are compared in C53_hash_partial"),
    ("C53", "partial", ["C53_hash_partial", "C53_hash_parts", "C53_hash_distinct", "C53_blank_ids_partial", "C53_false", "C53_literal_hash"],
     "Borrow<str> for Literal and LiteralRef is inconsistent in equality, order and hash; proved otherwise"),
    ("C54", "proved", ["C54_unit", "C54_local", "C54_kinds", "C54_listing", "C54_lexical"], ""),
    ("C55", "proved", ["C55_as_underlying", "C55_as_underlying_local", "C55_created", "C55_created_local", "C55_blank",
                       "C55_lexical", "C55_lexical_blank", "C55_into_parts"],
     "the unit interpretation is not LocalInterpretationMut in the code: with a Blank generator it is LocalGeneratorInterpretation"),
    ("C56", "proved", ["C56_containers", "C56_lexical", "C56_quads", "C56_triples", "C56_resource_or_var", "C56_literals",
                       "C56_terms", "C56_strings", "C56_local_terms", "C56_unchecked", "C56_borrowed"],
     "blank node labels are those BlankIdBuf::new accepts; C56_unchecked says what happens to the others"),
    ("C57", "partial", ["C57_iterators", "C57_containers", "C57_membership", "C57_errors", "C57_true_only_partial",
                        "C57_exact_partial", "C57_false", "C57_new_resource"],
     "try_contains_triple of an indexed container may deny a triple that contains_triple finds; proved otherwise; C73 says exactly when"),
    ("C58", "proved", ["C58_plain_display"], ""),
    ("C59", "proved", ["C59_statements", "C59_unambiguous", "C59_panics", "C59_compiles"],
     "labels of blank nodes are those the crate accepts (C43)"),
    ("C60", "partial", ["C60_pattern_partial", "C60_false"],
     "no pattern with a constant compiles; proved for variables and terms held by variables; C86 says exactly what compiles"),
    ("C61", "proved", ["C61_union"], ""),
    ("C62", "proved", ["C62_exact"], ""),
    ("C63", "proved", ["C63_last_added"], ""),
    ("C64", "proved", ["C64_once_named", "C64_panics", "C64_remove_graph"], ""),
    ("C65", "proved", ["C65_places", "C65_every_history"], ""),
    ("C66", "proved", ["C66_extracts_what_is_found"], ""),
    ("C67", "proved", ["C67_first_place"], ""),
    ("C68", "proved", ["C68_set_subject", "C68_set_predicate", "C68_set_object", "C68_reports"], ""),
    ("C69", "proved", ["C69_same_statements", "C69_same_up_to_names", "C69_all_forms"], ""),
    ("C70", "proved", ["C70_lists", "C70_occurrences", "C70_counts", "C70_every_history"], ""),
    ("C71", "proved", ["C71_searches", "C71_membership", "C71_statements", "C71_terms", "C71_every_history"], ""),
    ("C72", "proved", ["C72_dataset_lists", "C72_graph_lists", "C72_names", "C72_names_panic", "C72_panic_stays",
                       "C72_remove_graph", "C72_remove_graph_some", "C72_every_history"], ""),
    ("C73", "proved", ["C73_objects", "C73_predicates", "C73_try_contains"], ""),
    ("C74", "proved", ["C74_exact", "C74_equivalence", "C74_renaming", "C74_order"], ""),
    ("C75", "proved", ["C75_bijection", "C75_exact", "C75_equivalence", "C75_replaced", "C75_order",
                       "C75_names_agree", "C75_false"], ""),
    ("C76", "proved", ["C76_walks", "C76_walks_terms", "C76_one_walk", "C76_yields", "C76_stops", "C76_tests"], ""),
    ("C77", "proved", ["C77_every_search", "C77_one_place", "C77_in_order"],
     "the model of the trees fails unless the comparator answers in order on all items, so that every theorem saying that a method does not fail says so of each search the method makes"),
    ("C78", "proved", ["C78_first", "C78_first_terms", "C78_one", "C78_order", "C78_order_terms", "C78_identity"], ""),
    ("C79", "proved", ["C79_exact", "C79_decides", "C79_kinds", "C79_needed"], ""),
    ("C80", "proved", ["C80_terms", "C80_confused", "C80_containers"], "the exact complement of C49 and C50"),
    ("C81", "proved", ["C81_recognised", "C81_exact", "C81_decides"], ""),
    ("C82", "proved", ["C82_contents", "C82_same", "C82_resources", "C82_terms"], ""),
    ("C83", "proved", ["C83_terms", "C83_unambiguous", "C83_statements", "C83_containers", "C83_lexical"], ""),
    ("C84", "proved", ["C84_common", "C84_making", "C84_resources", "C84_indexed_dataset", "C84_indexed_graph", "C84_isomorphism"], ""),
    ("C85", "proved", ["C85_dataset", "C85_graph", "C85_derived"], ""),
    ("C86", "proved", ["C86_exact", "C86_unambiguous"], ""),
    ("C87", "proved", ["C87_terms", "C87_borrowed", "C87_statements", "C87_unchanged", "C87_misread"], ""),
    ("C88", "proved", ["C88_terms", "C88_statements", "C88_containers"], ""),
    ("C89", "proved", ["C89_places", "C89_map", "C89_map2", "C89_statements", "C89_map_all",
        "C89_pure", "C89_calls"], ""),
    ("C90", "proved", ["C90_renaming_dataset", "C90_renaming_graph", "C90_renaming_indexed",
        "C90_renaming_indexed_graph", "C90_renaming_conversion", "C90_renaming_graph_conversion",
        "C90_classes", "C90_sets", "C90_spelling", "C90_spelling_conversion"], ""),
    ("C91", "proved", ["C91_kept", "C91_returned", "C91_conversion"], ""),
    ("C92", "proved", ["C92_every_history", "C92_contents", "C92_dataset_lists", "C92_graph_lists", "C92_names", "C92_remove_graph"], ""),
    ("C93", "proved", ["C93_statements", "C93_resources", "C93_dataset_lists", "C93_graph_lists", "C93_around"], ""),
    ("C94", "proved", ["C94_session", "C94_conversion", "C94_iteration"], "the linked list of the crate slab is written from memory and was not compared with the text of the crate, which is not in /repo"),
    ("C95", "proved", ["C95_prints", "C95_one_line", "C95_lines", "C95_same", "C95_apart", "C95_numbers"], ""),
    ("C96", "proved", ["C96_one_line", "C96_lines", "C96_strings", "C96_apart", "C96_containers"], "the texts of IRIs and language tags are those of other crates and are parameters; so is the set of the characters that std prints as they are"),
    ("C97", "proved", ["C97_urn", "C97_apart", "C97_random", "C97_repeats", "C97_new_resource"], "the file does not compile with its features as written, the model is of what its functions say; the crate uuid is a parameter"),
    ("C98", "proved", ["C98_one_line", "C98_lines", "C98_apart", "C98_matches"], "the texts of terms and variables are parameters"),
    ("C99", "proved", ["C99_positions", "C99_total", "C99_matches", "C99_first"], "the order of terms is a parameter; partial_cmp is taken to be cmp, as for any type with a total order"),
    ("C100", "proved", ["C100_apart", "C100_matches", "C100_exchanged"], "what terms and variables write is a parameter"),
]
text = "\n".join(p.read_text() for p in (root / "lean/Verif").rglob("*.lean"))
names = set(re.findall(r"^(?:private |protected )?theorem ([\w.']+)", text, re.M))
props = [json.loads(l)["id"] for l in (root / "properties.jsonl").read_text().splitlines() if l.strip()]
out = []
for pid, status, thms, note in CLAIMS:
    for t in thms:
        assert t in names, t
    assert pid in props
    out.append({"property": pid, "status": status, "theorems": [N + t for t in thms], "note": note})
missing = [p for p in props if p not in {c["property"] for c in out}]
(root / "MANIFEST.json").write_text(json.dumps({"claims": out}, indent=1) + "\n")
print("claims", len(out), "without claim", missing)
