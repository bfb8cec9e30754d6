# Verification of `rdf-types` 0.22.4 in Lean 4

The code under study is in `/repo` (read as text, never built). The model and the proofs
are in `lean/Verif`. `properties.jsonl` lists the properties, `MANIFEST.json` maps each
one to theorems (written by `tools/manifest.py`), `seeded/LOG.jsonl` records how the
theorems reacted to wrong programs (§6).

Layout: `Base` describes external data structures, `Model` the code of the crate,
`Spec` the notions that the theorems are stated with, `Proof` the proofs, `Property` the
theorems of the manifest with an example beside each.

## 1. How the code is modelled

* Every Rust function is a total, computable Lean function. A function taking
  `&mut self` returns the new value. `Option` and `Result` stay data.
* Every panic is an explicit value: `Except Panic α`. Reading a vacant slab slot,
  decrementing a zero counter, `unwrap` of `None`, slicing a string off a character
  boundary and overflowing a counter are panics. Theorems therefore say "the call
  returns `.ok`", never "the call is total by convention".
* Functions given as arguments have no effects, except in `Model/Mapping`, where they have
  those of any monad; operands are evaluated from left to right.
* Iterators of containers are run to the end in most models; `Model/Iterators` has their `next`,
  and C93 says that it goes over the same lists.
* Loops are structural recursions or folds. The search loops of pattern matching and of
  isomorphism are recursions on fuel; running out of fuel is a distinct error value, and
  the theorems prove that it does not occur (termination).
* Code that the crate repeats (the four containers share the text of most trait
  implementations; each position of a statement has its own copy of a block) is modelled
  once and instantiated; the comment of the definition cites all the copies.
* References are the values they refer to. The borrowed forms of terms are distinct
  types with conversions, as comparisons between forms are written by hand in the crate.
* Each definition cites the file and the lines it models, and says what is simplified.

### What is modelled

| file of `/repo/src` | model |
|---|---|
| `dataset/impl/btree_dataset.rs`, `dataset/graph/impl/btree_graph.rs` | `Model/BTreeDataset`, `BTreeGraph`, `ResourceTable`, `Container`, `Iterators`, `Debugging` |
| `dataset/impl/indexed_btree_dataset.rs`, `dataset/graph/impl/indexed_btree_graph.rs` | `Model/IndexedBTreeDataset`, `IndexedBTreeGraph`, `PatternMatching`, `Iterators` |
| `dataset/mod.rs`, `dataset/graph/mod.rs`, `utils.rs` | `Model/Traits` (provided methods, blanket implementations of graphs as datasets), `Iterators` |
| `dataset/fallible.rs`, `dataset/graph/fallible.rs`, `interpretation/fallible.rs` | `Model/Fallible`, `Generative` |
| `dataset/isomorphism.rs` | `Model/Isomorphism`; called with the containers: `Model/Contents` |
| `pattern/**` | `Model/TriplePattern`, `QuadPattern`, `Mapping`, `PatternMap`, `DebugPatterns`, `PatternOrder`, `PatternHash` |
| `quad.rs`, `triple.rs` | `Model/Statement`, `Mapping`, `Display`, `Formatting`, `Serde`, `Debugging` |
| `term/**`, `literal/**`, `id/**` | `Model/Term`, `TermRef`, `Display`, `Formatting`, `Serde`, `DebugTerms` |
| `blankid.rs`, `term/generator/blank.rs` | `Model/BlankId` |
| `interpretation/**`, `term/generator/interpretation.rs` | `Model/Interpretation`, `Generative` |
| `display.rs` | `Model/Display`, `Formatting` |
| `term/generator/uuid.rs` | `Model/Uuid` |
| `macro.rs` | `Model/Macro` |

### External crates (trusted descriptions)

* `slab::Slab`: a list of optional entries and a stack of vacant keys. The intrusive
  linked list of the crate is replaced by the stack; `Base/LinkedSlab` has the list, and
  C94 says that both answer alike. It is written from memory and was not compared with the text
  of the crate, which is not in `/repo`. `insert` reuses the top of the
  stack, or appends. `remove`/indexing of a vacant slot panics. `capacity()` is a
  parameter not less than the number of entries; the theorems hold for all of its values.
* `raw_btree::RawBTree<usize>`: the ordered list of its items. `get`, `insert` and `remove`
  find a place by comparing items, in an order that depends on the shape of the tree. The
  model asks the comparator about all items and fails if it panics on one or if the answers
  are out of order; otherwise every search finds the same place (C77), so that a theorem
  saying that the model does not fail holds for every shape. What `insert` does with an
  equal element (replace or keep) is a Boolean parameter; all theorems hold for both values.
* `std::collections::BTreeSet<usize>` / `BTreeMap`: strictly sorted lists.
  `HashMap`/`HashSet`: partial functions, and lists without repetition whose order is not
  relied upon. `sort_unstable` is insertion sort (equal keys are identical).
* Resources: a type with a comparison satisfying the laws of a total order in which
  `Equal` means equal (`Std.TransOrd`, `Std.LawfulEqOrd`). `Hash` is what is written to
  the hasher. C90 does without: its renamings and spellings hold for any comparison, its sets for
  any total preorder, and with `C90_classes` the other theorems carry over up to spelling.
* `usize` is `Nat`. Counters cannot exceed the number of stored positions, so overflow
  would need more than 2^64 stored items. The blank node generator is the one place where
  the counter is under caller control; overflow is treated there as a panic (as in a
  build with overflow checks).
* `iref`, `langtag`: IRIs and language tags are opaque types; that owned and borrowed
  forms compare and hash alike is assumed. For display they are their texts, and validity
  is a stated condition on characters. `iri!` is a partial function from texts.
* `serde`: derived code is modelled as `serde_derive` generates it, for a self-describing
  format with the values of JSON; the errors of a format are not distinguished.
* `macro_rules!`: rules tried in order on a list of tokens; `None` is an error at compile
  time. Literals other than strings and the recursion limit are left out.
* `RefCell` is its content. `std::fmt`: `Model/Display` has no width, fill or precision, and
  writing succeeds; `Model/Formatting` has them (`Formatter::pad`, `Formatter::padding`,
  `write!`), for a buffer whose writes may fail. `IriBuf` and `LangTagBuf` display as `str`.

### Where the code can panic

Every expression of the non-test code that can panic is a panic in the model, and is reached
by no call on a container except the one in bold (C84):

| expression | where | panic |
|---|---|---|
| `resources[i]`, `quads[i]`, `triples[i]` | all four containers, in comparators, iterators, insertion, removal and conversion | `invalidKey` |
| **the same in the iterator of `named_graphs`** | `indexed_btree_dataset.rs` 770 | `invalidKey`, does happen (C19) |
| `slab.remove(i)` | removal, owned iteration | `invalidKey` |
| `occurrences -= 1` | plain containers | `underflow` |
| `get(..).unwrap()` | `isomorphism.rs` 99, 367, 368 | `unwrapNone` |
| `&self.0[2..]` | `blankid.rs` 57 | `badSlice` (C44) |
| `count += 1` | `term/generator/blank.rs` 63 | `overflow` (C45) |
| `from_suffix(..).unwrap()` | `macro.rs` 24, 155, 228 | `unwrapNone` (C59) |

Not counted: exhausted memory, `occurrences += 1` beyond `usize::MAX`, and panics of the
caller's own `Ord`, `Hash`, `Display` or iterators.

## 2. Not modelled

The functions of the crate `uuid` (parameters; `term/generator/uuid.rs` does not compile with its
features as written, see `Model/Uuid`), the `contextual` feature, the vocabulary traits of the external crates beyond the unit vocabulary, `schema.rs`
(constants), `DatasetView`/`GraphView` (structures of two public fields), the `Debug` output of the parts taken from patterns, of pattern maps and of errors (derived),
setters through mutable references to public fields, lifetimes, memory layout and
`unsafe` transmutes (`BlankId::new_unchecked` is the identity on strings), the concrete
hash functions, and the internals of the crates above.

## 3. Statements and proofs

| property | statement in terms of | proof |
|---|---|---|
| C01–C05 | the predicate that a history of calls denotes (`Spec/Set`, `Spec/Container`) | one invariant per container, preserved by each method; induction on histories |
| C06–C10, C12 | strictly ascending lists, the predicate of the history | two strictly sorted lists with the same elements are equal |
| C11 | the elements of a list | fold of insert |
| C13–C15 | positions of contained statements | the resource index is sorted, occurrence counters and sets are exact |
| C16 | agreement of all observations | the result satisfies the invariant of the indexed container |
| C17–C19 | positions of contained statements | invariant on the auxiliary sets |
| C63, C64 | the successive contents of the container (`Spec/Listings`) | the slots listed hold the terms described, induction on the past |
| C20–C23 | satisfaction of a pattern by a statement (`Spec/Matching`) | loop invariant over cursors: what lies before the cursor was yielded or does not match |
| C65–C67 | the places of the statements, which follow from the history (`Spec/Shelf`) | the slab holds the statements in these places; the path of the cursor through the places |
| C70 | the records of one resource along the events of a history (`Spec/Records`) | each record is a slot of the table; the current one is the slot the index lists |
| C71 | what a pattern asks of the records of a statement (`Spec/Found`), with the places of C65 | two positions have the same slot exactly if in the same record; the slot is listed exactly if the record is current |
| C72 | the calls that last touched each record at a position, since the conversion (`Spec/Marks`) | the set kept for a position holds the slots of the records described, induction on the calls since the start; a vacant slot in a list stays vacant until a slot is allocated |
| C73 | the same records, places and lists (`Spec/Objects`) | from C71 and C72 |
| C68–C69 | substitution and renaming of variables in patterns (`Spec/Pattern`) | the parts of the form of a pattern; a pattern is rebuilt from the statements it matches |
| C24 | the predicate of the history, before and after | the loop over the slots of the graph |
| C25–C27 | contained statements | from C20 and C21 |
| C28–C36 | assignments of terms to variables (`Spec/Pattern`) | case analysis on canonical forms |
| C37, C38, C61 | the list of inserted pairs, up to order; for unions, the rule `Steps.Holds` | refinement to the flattened map |
| C39–C41, C62 | renamings of blank nodes (`Spec/Isomorphism`) | completeness of the backtracking; invariant on the maps built |
| C74 | the places of blank nodes, apart from the other terms (`Spec/Frames`) | from C62; the comparisons made blank node by blank node add up to a permutation, from the greatest blank node down |
| C75 | sharing of terms, places of nameless resources (`Spec/Nameless`) | the same for any interpretation; a witness when sharing a term is not transitive |
| C76 | the walk through the places, testing the parts of the pattern in order (`Spec/Walk`) | each filter either passes, asks for the next slot or asks for the next listed one; induction on the fuel of the search loop |
| C77 | searches that narrow an interval of items (`Spec/Tree`) | the sortedness invariant of C01–C04; induction on the search |
| C78 | functions compared at the least argument at which they differ (`Spec/First`) | induction on the candidates left: the candidate taken is the least that leads to a result; signatures are sorted, so that they do not depend on the order of quads |
| C79 | every set of frames has one with a blank node that has one place or one shape in it; trees by depths (`Spec/Untangled`) | quads in one of the renamed dataset and the second but not both: their frames and shapes still correspond, so none has such a blank node |
| C80 | terms with blank nodes replaced by strings (`Spec/Quoted`), readers of `Spec/NTriples` | a term is displayed like its replacement, which has no blank node; C49 and C50 |
| C81 | quads carried to each other position by position (`Spec/Meaning`) | nameless resources taken as blank nodes and others as the sets of resources they share terms with: consistent renamings are the same ones, so C79 applies |
| C82 | contents after histories (`Property/Contents`) | iteration lists the content once (C06), what is found does not depend on the order of the quads (C78), so C39, C75, C79 and C81 apply |
| C83 | the documents of terms, statements and collections, as relations between values and what they stand for (`Spec/Documents`) | each reader is inverted; the fields of a literal by induction on the fields left, given those found; containers by C56 |
| C84 | one structure for each kind of container, with a field for each public method (`Spec/Panics`) | from the theorems about the single methods; searching from one fact about the iterators: they yield at most as many items as the slab has slots |
| C85 | the results of any number of calls of an iterator, also after the end (`Spec/Panics`) | asking the constraints again at the same slot gives the same answer and changes nothing (they only skip forward), so the loop ends again where it ended |
| C86 | the tokens of a pattern of names only (`Spec/Macro`) | evaluation is inverted on the expressions that it accepts; the parser inverts the rendering of expressions, so tokens determine them |
| C87 | the parts of a display, fixed or shaped by the options (`Spec/Formatting`); readers of `Spec/NTriples` | each display makes a fixed list of writes (composed over `?`, loops and `write!`), whose concatenation is the text of the parts; lengths of the shaped parts only grow with a width and only shrink with a precision |
| C88 | a buffer that logs its writes (`Spec/Formatting`) | the same lists of writes, run until one fails |
| C89 | the list of the four places, visited in turn (`Spec/Mapping`) | for any lawful monad, so for any state and any panic; one lemma per type of pattern |
| C90 | sessions with transcripts, renaming of transcripts, sets up to spelling (`Spec/Alike`) | one relation between two runs, over different terms with the same comparisons (`Proof/Related`, `Proof/RelatedContainers`); renaming, spelling and the classes of like terms are instances |
| C91 | states that sessions reach, the spelling of a term in a list (`Spec/Spelling`) | each reached state is mirrored by a container of the classes of C90, which says which statements are held; slot by slot, the calls change no term that is stored, which says how they are spelled (`Proof/Spelling`, `Proof/SpellingCalls`) |
| C92 | records in places, with marks (`Spec/Book`) | the slots of the table of resources are the places, the free list that of the emptied ones, the auxiliary sets the marks; kept by each step of insertion, removal and conversion (`Proof/Book`, `Proof/BookOf`, `Proof/BookIndexed`, `Proof/BookClaims`) |
| C93 | what the call number k of an iterator does (`Spec/Steps`) | induction over the slots to come; the lists are those of C06, C12, C13 and C92 |
| C94 | the answers of two slabs to a list of calls (`Spec/Linked`) | a relation between both that all calls keep: the links lead through the stack; for collecting, induction over the entries from the end |
| C95 | the text of a set of statements on one line, and its lines (`Spec/Debugging`) | the list of C06; induction over the characters that are indented; the items can be read one after the other |
| C96 | the text of a term on one line, and its lines; a table of escapes (`Spec/DebugTerms`) | the escapes are read back character by character; hexadecimal numbers by strong induction; indentation is undone before an item is read |
| C97 | the form of the RFC for URNs of UUIDs; the number that the digits write and the one that the bytes are; the UUID that each version makes, and those drawn from a random source (`Spec/Uuid`) | hexadecimal digits of bytes and groups of fixed length are injective; induction over the calls |
| C98 | the words for the positions of a pattern, one around the next, on one line and on lines (`Spec/DebugPatterns`); what patterns match (`Spec/Pattern`) | words hold no punctuation and tell whether a term is given; the parts of a pattern determine it (C31), and so do its statements (C69) |
| C99 | what a pattern says of a position and the order of that, and the first difference (`Spec/PatternOrder`); what patterns match (`Spec/Pattern`) | each enum compares as the positions it holds, by cases from the graph upwards; the parts of a pattern determine it (C31), and so do its statements (C69) |
| C100 | writes that can be told apart whatever follows (`Spec/Container`, as in C10); what patterns match (`Spec/Pattern`) | each enum by cases from the graph upwards: the first write is the variant, and the fields follow; statements determine patterns (C69) |
| C42–C44 | the grammar quoted in the documentation (`Spec/BlankId`) | the scanner accepts exactly the labels without dots |
| C45 | decimal rendering | the rendering is injective |
| C46–C50, C58 | a reader written from the N-Triples grammar (`Spec/NTriples`) | reading after writing, for every continuation of the text |
| C51–C53 | componentwise comparison, laws of total orders | case analysis |
| C54, C55 | the terms of a resource, the run of the generator alone (`Spec/Interpretation`) | case analysis, from C45 |
| C56 | a faithful serialisation of resources (`Spec/Serde`) | from C11; case analysis |
| C57 | the infallible methods | direct, from C25 |
| C59, C60 | the notation as relations between tokens and statements (`Spec/Macro`) | the parser accepts exactly the renderings |

## 4. Where the code disagrees with a property

Each is refuted by a theorem with a concrete witness, and the property is proved for the
cases that the defect does not reach (suffix `_partial`).

| property | theorem | behaviour of the code | what is proved |
|---|---|---|---|
| C14, C15 | `C14_false`, `C15_false` | a resource that is new and occurs twice in one inserted statement gets two records; only one is indexed, and removing the statement can unlist a resource that still occurs | histories in which statements repeat only known resources; C14 for insertions only; exactly what is reported and counted, on all histories (C70) |
| C18 | `C18_false`, `C18_twice_false` | removing a statement drops its terms from `subjects`, `predicates`, `objects` even if another statement has them; a term with two records is listed twice | removals of the last statement with the term; exactly what is listed (C63; C72 on all histories) |
| C19 | `C19_false`, `C19_reused_false` | graph names are dropped from `named_graphs` only together with their record, so that a name used elsewhere stays, or dangles (panic); once the slot is reused, a resource that never was a graph name is listed | names used as graph names only; insertions only; completeness always; only resources that occur are listed; exactly what is listed, and when it panics (C64; C72 with repeated resources; C92 after every history) |
| C21, C22, C23 | `C21_false`, `C22_false`, `C23_false` | the search with unbound subject stops at a vacant slot; `SameAs` compares records, of which a resource may have two | given subject; all patterns at the peak of the container; exactly what is yielded and taken out (C65, C66; C71, C76 on all histories) |
| C24 | `C24_false` | `remove_graph` returns `Some` for an empty default graph and for stale names | all other answers; exactly when a graph is returned (C64; C72 with repeated resources; C92 after every history), exactly which quads go, on all histories (C72) |
| C25, C26, C57 | `C25_false`, `C26_false`, `C57_false` | the queries that search inherit C14, C18, C21 | truth of positive answers always; exactness in the cases of C21; exactly when the answers are right (C67; C71 and C73 on all histories) |
| C34, C35 | `C34_false`, `C35_false`, `C35_wrong_report` | `set_predicate` on `?x ?y ?x` and `set_object` on `?x p ?x` forget an equality; `set_object` reports a wrong position | all other patterns; exactly what they do (C68) |
| C38 | `C38_false` | `union_with` replaces the entries under a shared key | maps sharing no given term; exactly what is kept (C61) |
| C41 | `C41_false` | quads without blank nodes are not compared, and a candidate mapping is checked through one blank node per quad | equal ground quads, and quads that share a blank node alike or with at most one blank node; exactly what is accepted (C62, C74); datasets whose blank nodes are not entangled, such as lists and trees (C79) |
| C43 | `C43_false` | labels with an inner dot are rejected | labels without dots |
| C45 | `C45_unchecked_prefix` | a prefix is not checked, so that labels can be invalid | valid or empty prefixes |
| C47 | `C47_escapes` | escapes in IRIs are written `\u0x..` | valid IRIs need none |
| C49 | `C49_false` | the RDF display of a blank node is that of a string, `"_:x"` | other terms; exactly what is confused (C80) |
| C53 | `C53_false`, `C53_literal_hash` | `Borrow<str>` for literals forgets the type | all other `Borrow` implementations |
| C60 | `C60_false` | `grdf_quad_pattern!` does not compile with any constant | variables, and terms held by variables; exactly what compiles (C86) |
| C87 | `C87_unchanged`, `C87_misread` | a width or precision given to `rdf_display` is applied to every character by itself, so that the text is read back as another term | exactly when the text is unchanged, and what is read back |
| C97 | `C97_repeats`, `C97_new_resource` | the UUID generators of versions 3 and 5 give one and the same term at each call | the form of the terms; when the terms of version 4 are distinct |

## 5. Trusted base

* Lean 4.33.0 kernel. No axioms (listed in §7) besides `propext`, `Classical.choice` and `Quot.sound`;
  no `sorry`, `native_decide` or `bv_decide`.
* The reading of the Rust code reflected in the model, with citations.
* The descriptions of external crates above.

As a check of the reading (not a proof), `tools/repotests.py` runs the 220 isomorphism tests of
`/repo/tests` on the compiled model, and container tests like those of `/repo/src`. All results
are those the tests expect.

## 6. Wrong programs

`seeded/*.py` lists edits of the model, each like a mistake that could have been made in
the code. `tools/sweep.py` makes further edits by rule. `seeded/LOG.jsonl` has one line
per edit. There are two ways of testing a theorem against an edit.

- `tools/seed.py` builds the edited model with every proof. A declaration that no longer
  checks is replaced by `sorry`. The theorems of the manifest that then depend on `sorry`
  are logged as `failed`, the declarations that were replaced as `first_to_fail`. A
  theorem listed as failed may be still true: its proof may only have been about the text
  that was edited. Edits that break no claim are logged with "nothing" in `breaks`.
- `tools/refute.py` builds the edited model with the statements of the theorems only, and
  checks a proof (in `seeded/refuted.py`) that the statement is false under the edit.
  Such theorems are logged as `refuted`. This shows that the statement itself tells the
  wrong program from the right one. No proof may depend on `sorry`.

Statements without a refutation are mainly of two kinds. Some are about the specification only, so
that no edit of the model makes them false: that every history has events or places
(`C65_every_history`, `C70_every_history`, `C71_every_history`, `C72_every_history`), that a
notion used by other theorems is unambiguous or has the stated reading (`C45_apart_no_digit`, `C59_unambiguous`,
`C71_terms`, `C75_names_agree`, `C76_one_walk`, `C76_yields`, `C76_stops`, `C76_tests`,
`C77_one_place`, `C78_one`, `C79_kinds`, `C83_unambiguous`, `C86_unambiguous`, `C89_places`,
`C90_classes`). Others say
that something goes wrong (`_false`, `C79_needed`, `C45_unchecked_prefix`). The renamings of C90
hold of every program that sees terms through their order only; an edit that looks at terms in
another way does not compile, because the model has no other means. Besides, the instances
behind `C51_total` stand beside the model, so that an edit of the order is rejected there already.

## 7. Axioms

Axioms that each theorem depends on (`tools/axioms.py`):

* Classical.choice, Quot.sound, propext: `C01_btree_dataset`, `C02_btree_graph`, `C03_indexed_dataset`, `C04_indexed_graph`, `C05_insert_remove_report`, `C06_iteration`, `C07_len`, `C08_equality`, `C09_order`, `C10_hash`, `C10_tells_apart`, `C11_collect`, `C12_into_iter`, `C13_resources`, `C14_known_repeats_partial`, `C14_insert_only_partial`, `C14_false`, `C15_known_repeats_partial`, `C15_false`, `C16_conversion`, `C17_positions_sound`, `C18_last_with_partial`, `C18_each_once_partial`, `C18_false`, `C18_twice_false`, `C19_names_apart_partial`, `C19_insert_only_partial`, `C19_complete_partial`, `C19_bounds_partial`, `C19_false`, `C19_reused_false`, `C20_sound`, `C21_given_subject_partial`, `C21_at_peak_partial`, `C21_false`, `C22_sound_partial`, `C22_complete_partial`, `C22_false`, `C23_extracts_partial`, `C23_nothing_left_partial`, `C23_false`, `C24_any_history_partial`, `C24_default_graph_partial`, `C24_named_graph_partial`, `C24_named_graph_insert_only_partial`, `C24_false`, `C25_statement_partial`, `C25_true_only_partial`, `C25_given_subject_partial`, `C25_at_peak_partial`, `C25_false`, `C26_sound_partial`, `C26_objects_partial`, `C26_predicates_partial`, `C26_false`, `C27_indexed_graph`, `C27_listings`, `C28_triple_pattern`, `C29_quad_pattern`, `C31_ids`, `C32_graph_part`, `C33_set_subject`, `C34_set_predicate_partial`, `C35_set_object_partial`, `C37_patterns`, `C37_parts`, `C38_union_partial`, `C38_counts_partial`, `C38_bounds_partial`, `C39_recognised`, `C39_repeated`, `C40_bijection`, `C41_surroundings_partial`, `C41_one_blank_partial`, `C41_alike_partial`, `C41_false`, `C42_accepted`, `C43_false`, `C44_numbers`, `C45_distinct`, `C45_unchecked_prefix`, `C46_strings`, `C46_injective`, `C47_iris`, `C47_escapes`, `C47_lossless`, `C48_literals`, `C48_forms`, `C49_ground_partial`, `C49_blank_as_string`, `C49_false`, `C50_containers`, `C53_false`, `C54_kinds`, `C55_blank`, `C55_lexical_blank`, `C56_containers`, `C56_lexical`, `C56_resource_or_var`, `C56_literals`, `C56_terms`, `C56_strings`, `C56_local_terms`, `C56_unchecked`, `C56_borrowed`, `C57_true_only_partial`, `C57_exact_partial`, `C57_false`, `C58_plain_display`, `C60_false`, `C61_union`, `C62_exact`, `C63_last_added`, `C64_once_named`, `C64_panics`, `C64_remove_graph`, `C65_places`, `C65_every_history`, `C66_extracts_what_is_found`, `C67_first_place`, `C68_set_subject`, `C68_set_predicate`, `C68_set_object`, `C69_same_statements`, `C69_same_up_to_names`, `C70_lists`, `C70_occurrences`, `C70_counts`, `C70_every_history`, `C71_searches`, `C71_membership`, `C71_statements`, `C71_every_history`, `C72_dataset_lists`, `C72_graph_lists`, `C72_names`, `C72_names_panic`, `C72_panic_stays`, `C72_remove_graph`, `C72_remove_graph_some`, `C73_objects`, `C73_predicates`, `C73_try_contains`, `C74_exact`, `C74_equivalence`, `C74_renaming`, `C74_order`, `C75_bijection`, `C75_exact`, `C75_equivalence`, `C75_replaced`, `C75_order`, `C76_walks`, `C76_walks_terms`, `C76_one_walk`, `C76_stops`, `C77_in_order`, `C78_first`, `C78_first_terms`, `C78_order_terms`, `C78_identity`, `C79_exact`, `C79_decides`, `C79_kinds`, `C79_needed`, `C80_terms`, `C80_confused`, `C80_containers`, `C81_recognised`, `C81_exact`, `C81_decides`, `C82_contents`, `C82_same`, `C82_resources`, `C82_terms`, `C83_terms`, `C83_unambiguous`, `C83_statements`, `C83_containers`, `C83_lexical`, `C84_common`, `C84_making`, `C84_resources`, `C84_indexed_dataset`, `C84_indexed_graph`, `C84_isomorphism`, `C85_dataset`, `C85_graph`, `C87_terms`, `C87_borrowed`, `C87_statements`, `C87_unchanged`, `C87_misread`, `C88_terms`, `C88_statements`, `C88_containers`, `C90_renaming_indexed`, `C90_renaming_indexed_graph`, `C90_renaming_conversion`, `C90_renaming_graph_conversion`, `C90_sets`, `C90_spelling`, `C90_spelling_conversion`, `C91_kept`, `C91_returned`, `C91_conversion`, `C92_every_history`, `C92_contents`, `C92_dataset_lists`, `C92_graph_lists`, `C92_names`, `C92_remove_graph`, `C93_statements`, `C93_resources`, `C93_dataset_lists`, `C93_graph_lists`, `C94_conversion`, `C95_prints`, `C95_one_line`, `C95_lines`, `C95_same`, `C95_apart`, `C95_numbers`, `C96_lines`, `C96_strings`, `C96_apart`, `C96_containers`, `C98_lines`, `C98_matches`, `C99_positions`, `C99_total`, `C99_matches`, `C99_first`, `C100_matches`
* Quot.sound, propext: `C27_quads`, `C27_matching`, `C36_map`, `C36_map_statements`, `C36_map_pattern`, `C38_false`, `C43_labels_partial`, `C44_suffix`, `C45_constructors`, `C45_valid`, `C45_apart`, `C51_equality`, `C52_accessors`, `C54_lexical`, `C55_as_underlying`, `C55_as_underlying_local`, `C55_created`, `C55_created_local`, `C55_into_parts`, `C56_quads`, `C56_triples`, `C57_membership`, `C57_new_resource`, `C59_statements`, `C59_unambiguous`, `C59_panics`, `C59_compiles`, `C60_pattern_partial`, `C75_names_agree`, `C75_false`, `C76_yields`, `C76_tests`, `C77_every_search`, `C77_one_place`, `C78_order`, `C85_derived`, `C86_exact`, `C86_unambiguous`, `C89_map`, `C89_map2`, `C89_statements`, `C89_map_all`, `C89_pure`, `C89_calls`, `C90_renaming_dataset`, `C90_renaming_graph`, `C90_classes`, `C94_session`, `C94_iteration`, `C96_one_line`, `C97_urn`, `C97_apart`, `C97_random`, `C97_repeats`, `C97_new_resource`, `C98_one_line`, `C98_apart`, `C100_exchanged`
* none: `C53_hash_parts`, `C54_local`, `C69_all_forms`
* propext: `C30_from_statements`, `C31_parts`, `C31_into_triple`, `C31_filter_triple`, `C34_forgets`, `C34_false`, `C35_forgets`, `C35_wrong_report`, `C35_false`, `C36_parts`, `C45_apart_no_digit`, `C51_lexicographic`, `C51_default_graph_first`, `C51_agrees`, `C51_total`, `C52_equality`, `C52_order`, `C52_conversions`, `C52_round_trips`, `C52_copies`, `C53_hash_partial`, `C53_hash_distinct`, `C53_blank_ids_partial`, `C53_literal_hash`, `C54_unit`, `C54_listing`, `C55_lexical`, `C57_iterators`, `C57_containers`, `C57_errors`, `C68_reports`, `C71_terms`, `C72_every_history`, `C78_one`, `C89_places`, `C93_around`, `C100_apart`
