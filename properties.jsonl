{"id": "C01", "title": "BTreeDataset is a set of quads", "statement": "After any history of calls to insert, remove and extend on a BTreeDataset, contains(q) is true exactly when the last call that mentions q was an insertion. No call in the history panics.", "quantifier": "every finite sequence of insert, remove and extend calls, starting from an empty container, over any totally ordered resource type", "why_tests_cant": "The state space of call histories is infinite and the interesting states need particular interleavings of insertions and removals that reuse internal slots; tests only visit a few of them.", "anchors": ["src/dataset/impl/btree_dataset.rs: BTreeDataset::{new,insert,remove,contains,extend,from_iter}"]}
{"id": "C02", "title": "BTreeGraph is a set of triples", "statement": "After any history of calls to insert, remove and extend on a BTreeGraph, contains(t) is true exactly when the last call that mentions t was an insertion. No call in the history panics.", "quantifier": "every finite sequence of insert, remove and extend calls, starting from an empty container, over any totally ordered resource type", "why_tests_cant": "The state space of call histories is infinite and the interesting states need particular interleavings of insertions and removals that reuse internal slots; tests only visit a few of them.", "anchors": ["src/dataset/graph/impl/btree_graph.rs: BTreeGraph::{new,insert,remove,contains,extend,from_iter}"]}
{"id": "C03", "title": "IndexedBTreeDataset is a set of quads", "statement": "After any history of calls to insert, remove, extend, remove_graph and (fully or partly consumed) extract_pattern_matching on an IndexedBTreeDataset, contains(q) answers according to the mathematical set obtained by applying the effects of each call: insert adds the quad, remove deletes it, and the two extraction calls delete exactly the quads they return. No call panics.", "quantifier": "every finite sequence of mutating calls, from an empty container, over any totally ordered resource type", "why_tests_cant": "The state space of call histories is infinite and the interesting states need particular interleavings of insertions and removals that reuse internal slots; tests only visit a few of them.", "anchors": ["src/dataset/impl/indexed_btree_dataset.rs: IndexedBTreeDataset::{new,insert,remove,contains,extend,remove_graph,extract_pattern_matching}"]}
{"id": "C04", "title": "IndexedBTreeGraph is a set of triples", "statement": "After any history of calls to insert, remove and extend on an IndexedBTreeGraph, contains(t) is true exactly when the last call that mentions t was an insertion. No call in the history panics.", "quantifier": "every finite sequence of insert, remove and extend calls, starting from an empty container, over any totally ordered resource type", "why_tests_cant": "The state space of call histories is infinite and the interesting states need particular interleavings of insertions and removals that reuse internal slots; tests only visit a few of them.", "anchors": ["src/dataset/graph/impl/indexed_btree_graph.rs: IndexedBTreeGraph::{new,insert,remove,contains,extend,from_iter}"]}
{"id": "C05", "title": "insert and remove report whether they changed the container", "statement": "In each of the four containers and after any history, insert(x) returns true exactly when x was absent before the call and remove(x) returns true exactly when x was present; a call returning false leaves the set of statements unchanged.", "quantifier": "every reachable state of each container and every statement", "why_tests_cant": "The state space of call histories is infinite and the interesting states need particular interleavings of insertions and removals that reuse internal slots; tests only visit a few of them.", "anchors": ["src/dataset/impl/btree_dataset.rs: insert, remove", "src/dataset/graph/impl/btree_graph.rs: insert, remove", "src/dataset/impl/indexed_btree_dataset.rs: insert, remove", "src/dataset/graph/impl/indexed_btree_graph.rs: insert, remove"]}
{"id": "C06", "title": "Iteration lists each statement once, in ascending order", "statement": "In each of the four containers and after any history, iter() does not panic and yields a strictly ascending (hence duplicate free) sequence, for the (subject, predicate, object, graph) lexicographic order with the default graph first, whose elements are exactly the statements for which contains is true.", "quantifier": "every reachable state of each container", "why_tests_cant": "The state space of call histories is infinite and the interesting states need particular interleavings of insertions and removals that reuse internal slots; tests only visit a few of them.", "anchors": ["src/dataset/impl/btree_dataset.rs: iter, Quads::next", "src/dataset/graph/impl/btree_graph.rs: iter, Triples::next", "src/dataset/impl/indexed_btree_dataset.rs: iter, Quads::next", "src/dataset/graph/impl/indexed_btree_graph.rs: iter, Triples::next"]}
{"id": "C07", "title": "len counts the statements", "statement": "In each of the four containers and after any history, len() equals the number of items yielded by iter(), and is_empty() is true exactly when iter() yields nothing.", "quantifier": "every reachable state of each container", "why_tests_cant": "The state space of call histories is infinite and the interesting states need particular interleavings of insertions and removals that reuse internal slots; tests only visit a few of them. len is read from the slot table while iter reads the ordered index, so agreement is an invariant across all histories.", "anchors": ["src/dataset/impl/btree_dataset.rs: len, is_empty", "src/dataset/graph/impl/btree_graph.rs: len, is_empty", "src/dataset/impl/indexed_btree_dataset.rs: len, is_empty", "src/dataset/graph/impl/indexed_btree_graph.rs: len, is_empty"]}
{"id": "C08", "title": "Equality of containers depends only on their contents", "statement": "For each of the four container types, two values compare equal with == exactly when they contain the same statements, whatever histories produced them.", "quantifier": "every pair of reachable states", "why_tests_cant": "Needs all pairs of histories leading to the same contents with different internal slot layouts.", "anchors": ["src/dataset/impl/btree_dataset.rs: PartialEq", "src/dataset/graph/impl/btree_graph.rs: PartialEq", "src/dataset/impl/indexed_btree_dataset.rs: PartialEq", "src/dataset/graph/impl/indexed_btree_graph.rs: PartialEq"]}
{"id": "C09", "title": "Ordering of containers is a total order on contents", "statement": "For each of the four container types, cmp is a total order (reflexive, antisymmetric, transitive, total), it returns Equal exactly when == holds, partial_cmp always returns Some of the same answer, and the answer depends only on the contents.", "quantifier": "every pair and triple of reachable states", "why_tests_cant": "A law over all triples of values built by arbitrary histories.", "anchors": ["src/dataset/impl/btree_dataset.rs: PartialOrd, Ord", "src/dataset/graph/impl/btree_graph.rs: PartialOrd, Ord", "src/dataset/impl/indexed_btree_dataset.rs: PartialOrd, Ord", "src/dataset/graph/impl/indexed_btree_graph.rs: PartialOrd, Ord"]}
{"id": "C10", "title": "Equal containers hash equally", "statement": "For each of the four container types, two values that compare equal feed exactly the same sequence of writes to the hasher, and two values that differ feed different ones if the writes of resources can be told apart.", "quantifier": "every pair of reachable states with equal contents, every hasher", "why_tests_cant": "Needs all pairs of different histories with the same contents.", "anchors": ["src/dataset/impl/btree_dataset.rs: Hash", "src/dataset/graph/impl/btree_graph.rs: Hash", "src/dataset/impl/indexed_btree_dataset.rs: Hash", "src/dataset/graph/impl/indexed_btree_graph.rs: Hash"]}
{"id": "C11", "title": "Collecting statements ignores order and repetition", "statement": "For each of the four container types, collecting a sequence of statements gives a container that contains exactly the elements of the sequence; collecting two sequences with the same elements gives equal containers; collecting what iter() or into_iter() yields from a container gives a container equal to it.", "quantifier": "every finite sequence of statements, every reachable container", "why_tests_cant": "Quantifies over all sequences and all permutations of them.", "anchors": ["src/dataset/impl/btree_dataset.rs: FromIterator, Extend", "src/dataset/graph/impl/btree_graph.rs: FromIterator, Extend", "src/dataset/impl/indexed_btree_dataset.rs: FromIterator, Extend", "src/dataset/graph/impl/indexed_btree_graph.rs: FromIterator, Extend"]}
{"id": "C12", "title": "Consuming iteration agrees with borrowing iteration", "statement": "For each of the four container types and any reachable value, into_iter() does not panic and yields the same sequence of statements as iter().", "quantifier": "every reachable state", "why_tests_cant": "into_iter empties slots as it goes; a panic or a wrong item needs a particular internal layout.", "anchors": ["src/dataset/impl/btree_dataset.rs: IntoTriples::next", "src/dataset/graph/impl/btree_graph.rs: IntoTriples::next", "src/dataset/impl/indexed_btree_dataset.rs: IntoTriples::next", "src/dataset/graph/impl/indexed_btree_graph.rs: IntoTriples::next"]}
{"id": "C13", "title": "Listed resources really occur, once each and in order", "statement": "In each of the four containers and after any history, resources() does not panic and yields a strictly ascending sequence of resources, each of which occurs in some contained statement; contains_resource(r) is true exactly when r is yielded by resources().", "quantifier": "every reachable state and every resource", "why_tests_cant": "The state space of call histories is infinite and the interesting states need particular interleavings of insertions and removals that reuse internal slots; tests only visit a few of them.", "anchors": ["src/dataset/impl/btree_dataset.rs: resources, contains_resource", "src/dataset/graph/impl/btree_graph.rs: resources, contains_resource", "src/dataset/impl/indexed_btree_dataset.rs: resources, contains_resource", "src/dataset/graph/impl/indexed_btree_graph.rs: resources, contains_resource"]}
{"id": "C14", "title": "Every occurring resource is listed", "statement": "In each of the four containers and after any history, every resource that occurs in a contained statement is yielded by resources() and is reported by contains_resource.", "quantifier": "every reachable state and every resource occurring in a contained statement", "why_tests_cant": "Fails only after a history that inserts a statement using one new resource in two positions and later removes it; random tests with wide resource ranges never hit it.", "anchors": ["src/dataset/impl/btree_dataset.rs: insert, remove, contains_resource", "src/dataset/graph/impl/btree_graph.rs: insert, remove, contains_resource", "src/dataset/impl/indexed_btree_dataset.rs: insert, remove, contains_resource", "src/dataset/graph/impl/indexed_btree_graph.rs: insert, remove, contains_resource"]}
{"id": "C15", "title": "resource_count counts the distinct resources", "statement": "In the indexed containers and after any history, resource_count() (graph_resource_count() for graphs) equals the number of items yielded by resources().", "quantifier": "every reachable state", "why_tests_cant": "The count is read from the slot table, the listing from the ordered index; agreement is an invariant over all histories.", "anchors": ["src/dataset/impl/indexed_btree_dataset.rs: ResourceTraversableDataset::resource_count", "src/dataset/graph/impl/indexed_btree_graph.rs: ResourceTraversableGraph::graph_resource_count"]}
{"id": "C16", "title": "Indexing a container preserves it", "statement": "Converting a BTreeDataset (BTreeGraph) into its indexed form does not panic and yields a container with the same contains, iter, len, resources and contains_resource, on which all properties of indexed containers hold for any further history, except that the conversion makes no promise on internal slots.", "quantifier": "every reachable BTreeDataset / BTreeGraph and every further history", "why_tests_cant": "Quantifies over histories before and after the conversion.", "anchors": ["src/dataset/impl/btree_dataset.rs: into_indexed", "src/dataset/graph/impl/btree_graph.rs: into_indexed", "src/dataset/impl/indexed_btree_dataset.rs: from_non_indexed", "src/dataset/graph/impl/indexed_btree_graph.rs: from_non_indexed"]}
{"id": "C17", "title": "subjects, predicates and objects list only occurring terms", "statement": "In both indexed containers and after any history, subjects(), predicates() and objects() do not panic and yield only resources that occur in that position of a contained statement.", "quantifier": "every reachable state", "why_tests_cant": "The state space of call histories is infinite and the interesting states need particular interleavings of insertions and removals that reuse internal slots; tests only visit a few of them.", "anchors": ["src/dataset/impl/indexed_btree_dataset.rs: subjects, predicates, objects", "src/dataset/graph/impl/indexed_btree_graph.rs: subjects, predicates, objects"]}
{"id": "C18", "title": "subjects, predicates and objects list every occurring term", "statement": "In both indexed containers and after any history, every resource occurring as subject (predicate, object) of a contained statement is yielded exactly once by subjects() (predicates(), objects()), and the corresponding count methods return the number of those resources.", "quantifier": "every reachable state", "why_tests_cant": "Fails only after removing one of several statements sharing a term in the same position.", "anchors": ["src/dataset/impl/indexed_btree_dataset.rs: subjects, predicates, objects, insert, remove_by_index", "src/dataset/graph/impl/indexed_btree_graph.rs: subjects, predicates, objects, insert, remove"]}
{"id": "C19", "title": "named_graphs lists exactly the non-empty named graphs", "statement": "After any history, named_graphs() of an IndexedBTreeDataset does not panic and yields exactly the resources g such that some contained quad is in graph g.", "quantifier": "every reachable IndexedBTreeDataset", "why_tests_cant": "Fails only after a graph name is also used as a term and the two uses are removed in a particular order.", "anchors": ["src/dataset/impl/indexed_btree_dataset.rs: named_graphs, remove_by_index"]}
{"id": "C20", "title": "Pattern matching is sound and repetition free", "statement": "After any history and for any canonical pattern, pattern_matching on an indexed container terminates, does not panic, and yields only contained statements that match the pattern, each at most once.", "quantifier": "every reachable state of either indexed container, every canonical pattern", "why_tests_cant": "Quantifies over all contents, slot layouts and patterns; the skipping search is an interleaving of four moving cursors.", "anchors": ["src/dataset/impl/indexed_btree_dataset.rs: pattern_matching, PatternMatching::next, SubjectConstraints, PredicateConstraints, ObjectConstraints, GraphConstraints", "src/dataset/graph/impl/indexed_btree_graph.rs: pattern_matching, PatternMatching::next"]}
{"id": "C21", "title": "Pattern matching is complete", "statement": "After any history and for any canonical pattern, every contained statement that matches the pattern is yielded by pattern_matching on an indexed container.", "quantifier": "every reachable state of either indexed container, every canonical pattern", "why_tests_cant": "Fails only when slots are vacant or when one new resource was inserted in two positions of one statement.", "anchors": ["src/dataset/impl/indexed_btree_dataset.rs: pattern_matching, PatternMatching::next", "src/dataset/graph/impl/indexed_btree_graph.rs: pattern_matching, PatternMatching::next"]}
{"id": "C22", "title": "Multi-pattern matching", "statement": "After any history and for any canonical pattern whose given positions carry finite lists of resources, multi_pattern_matching terminates, does not panic, and yields, each once, exactly the contained quads that match the pattern for some choice of one resource per given position.", "quantifier": "every reachable IndexedBTreeDataset, every canonical pattern over lists of resources", "why_tests_cant": "Same search as pattern matching over merged, possibly repeated, candidate lists.", "anchors": ["src/dataset/impl/indexed_btree_dataset.rs: multi_pattern_matching, MultiPatternMatching::next, new_multi"]}
{"id": "C23", "title": "Extracting by pattern removes exactly what it yields", "statement": "After any history and for any canonical pattern, running extract_pattern_matching (to completion or stopping after any number of items) does not panic, yields only contained quads that match the pattern, each once, and leaves a dataset containing exactly the other quads. Run to completion, no remaining quad matches the pattern.", "quantifier": "every reachable IndexedBTreeDataset, every canonical pattern, every number of consumed items", "why_tests_cant": "The iterator mutates the table it is scanning.", "anchors": ["src/dataset/impl/indexed_btree_dataset.rs: extract_pattern_matching, ExtractPatternMatching::next"]}
{"id": "C24", "title": "remove_graph removes and returns exactly one graph", "statement": "After any history, remove_graph(g) does not panic; it returns Some graph exactly when some quad is in graph g, the returned graph contains exactly the triples of the quads in graph g, and afterwards the dataset contains exactly the quads not in graph g.", "quantifier": "every reachable IndexedBTreeDataset, every graph name including the default graph", "why_tests_cant": "The state space of call histories is infinite and the interesting states need particular interleavings of insertions and removals that reuse internal slots; tests only visit a few of them.", "anchors": ["src/dataset/impl/indexed_btree_dataset.rs: remove_graph, remove_by_index"]}
{"id": "C25", "title": "Membership queries by position", "statement": "contains_quad, contains_quad_subject, contains_quad_predicate, contains_quad_object and contains_named_graph (and their triple versions) answer true exactly when some contained statement has the given term in the given position.", "quantifier": "every reachable indexed container and every term", "why_tests_cant": "They stop at the first result of the pattern search, whose completeness depends on the history.", "anchors": ["src/dataset/mod.rs: PatternMatchingDataset", "src/dataset/graph/mod.rs: PatternMatchingGraph"]}
{"id": "C26", "title": "Objects of a subject and predicate", "statement": "quad_objects(g, s, p) (triple_objects(s, p)) yields, each once, exactly the objects o such that the statement s p o (in graph g) is contained; quad_predicates_objects(g, s) (triple_predicates_objects(s)) pairs each predicate p having such an o with all those objects.", "quantifier": "every reachable indexed container, every subject, predicate and graph", "why_tests_cant": "Depends on the predicate listing and on the pattern search at all histories.", "anchors": ["src/dataset/mod.rs: quad_objects, quad_predicates_objects, QuadObjects, QuadPredicatesObjects", "src/dataset/graph/mod.rs: triple_objects, triple_predicates_objects"]}
{"id": "C27", "title": "A graph used as a dataset holds its triples in the default graph", "statement": "Any graph seen through the dataset traits has as quads exactly its triples in the default graph, in the same order and number, has no named graphs, and matching a canonical quad pattern on it yields exactly the quads matching that pattern whenever triple matching is exact. Its resources, subjects, predicates and objects and their numbers are those of its triples.", "quantifier": "every graph and every canonical quad pattern", "why_tests_cant": "Quantifies over every pattern shape (there are 52) and over all graph contents.", "anchors": ["src/dataset/mod.rs: blanket impls for graphs", "src/utils.rs: TripleToQuadIterator, OptionIterator", "src/pattern/quad/canonical.rs: into_triple"]}
{"id": "C28", "title": "Canonical triple patterns denote the source pattern", "statement": "For every triple pattern made of terms and variables, its canonical form matches exactly the triples obtained from the pattern by some assignment of terms to variables; in particular repeated variables force equal terms, and two patterns that differ by renaming of variables have the same canonical form.", "quantifier": "every triple pattern over any terms and variables, every triple", "why_tests_cant": "All terms, variables and coreference shapes.", "anchors": ["src/pattern/triple/canonical.rs: CanonicalTriplePattern::from_pattern", "src/pattern/triple/mod.rs"]}
{"id": "C29", "title": "Canonical quad patterns denote the source pattern", "statement": "For every quad pattern made of terms and variables, where the graph position is absent (default graph), a term or a variable, its canonical form matches exactly the quads obtained from the pattern by some assignment; a graph variable used nowhere else also matches the default graph, and one used elsewhere forces a named graph equal to that term.", "quantifier": "every quad pattern over any terms and variables, every quad", "why_tests_cant": "All terms, variables and coreference shapes.", "anchors": ["src/pattern/quad/canonical.rs: CanonicalQuadPattern::from_pattern"]}
{"id": "C30", "title": "Canonical patterns built from terms and optional terms", "statement": "from_triple, from_quad, from_option_triple and from_option_quad give canonical patterns that match exactly the statements equal to the given statement at each given position, where an absent term matches anything, a triple without graph matches in any graph, and an absent outer graph option matches any graph including the default one.", "quantifier": "every statement and option statement", "why_tests_cant": "All inputs.", "anchors": ["src/pattern/triple/canonical.rs: from_triple, from_option_triple", "src/pattern/quad/canonical.rs: from_triple, from_quad, from_option_triple, from_option_quad"]}
{"id": "C31", "title": "Taking canonical patterns apart loses nothing", "statement": "The subject, predicate, object and graph parts reported by a canonical pattern determine it: two patterns with the same parts are equal, the pattern matches a statement exactly when each part holds of the statement, and into_triple on a quad pattern returns a triple pattern and a graph part that together match exactly the same quads. The id of a part is some term exactly when that term is the only one the statements matching the pattern can have there.", "quantifier": "every canonical pattern, every statement", "why_tests_cant": "All pattern shapes and terms.", "anchors": ["src/pattern/quad/canonical.rs: into_parts, into_triple, into_subject, into_predicate, into_object, into_graph", "src/pattern/triple/canonical.rs: into_subject, into_predicate, into_object", "src/pattern/triple/canonical.rs, src/pattern/quad/canonical.rs: id, into_id"]}
{"id": "C32", "title": "Adding a graph part to a triple pattern", "statement": "with_any_graph turns a triple pattern into a quad pattern matching exactly the quads, in any graph, whose triple matches; from_triple_pattern of a term/variable triple pattern matches exactly the default-graph quads whose triple matches.", "quantifier": "every triple pattern, every quad", "why_tests_cant": "All pattern shapes and terms.", "anchors": ["src/pattern/triple/canonical.rs: with_any_graph", "src/pattern/quad/canonical.rs: from_triple_pattern"]}
{"id": "C33", "title": "Binding the subject of a triple pattern", "statement": "On a canonical triple pattern with unbound subject, set_subject(t) leaves a pattern that matches exactly the triples matched before whose subject is t; with a bound subject it replaces the bound subject and changes nothing else. The returned value describes the previous subject.", "quantifier": "every canonical triple pattern, every term, every triple", "why_tests_cant": "All pattern shapes and terms, including coreferences that must be rewritten.", "anchors": ["src/pattern/triple/canonical.rs: set_subject"]}
{"id": "C34", "title": "Binding the predicate of a triple pattern", "statement": "On a canonical triple pattern with unbound predicate, set_predicate(t) leaves a pattern that matches exactly the triples matched before whose predicate is t; with a bound predicate it replaces the bound predicate and changes nothing else. The returned value describes the previous predicate.", "quantifier": "every canonical triple pattern, every term, every triple", "why_tests_cant": "All pattern shapes and terms, including coreferences that must be rewritten.", "anchors": ["src/pattern/triple/canonical.rs: set_predicate"]}
{"id": "C35", "title": "Binding the object of a triple pattern", "statement": "On a canonical triple pattern with unbound object, set_object(t) leaves a pattern that matches exactly the triples matched before whose object is t; with a bound object it replaces the bound object and changes nothing else. The returned value describes the previous object.", "quantifier": "every canonical triple pattern, every term, every triple", "why_tests_cant": "All pattern shapes and terms, including coreferences that must be rewritten.", "anchors": ["src/pattern/triple/canonical.rs: set_object"]}
{"id": "C36", "title": "Mapping the terms of a pattern", "statement": "map(f) on a canonical quad pattern matches the image under f of every statement the pattern matches; when f is injective it matches the image of a statement exactly when the pattern matches the statement; map is functorial. Mapping statements (map, map_all, cloned, as_ref) acts on each position independently. Taking a statement apart and exchanging its graph keeps every other component, and mapping the terms of a pattern with variables is mapping its canonical form.", "quantifier": "every canonical quad pattern or statement, every function on terms", "why_tests_cant": "All functions and shapes.", "anchors": ["src/pattern/quad/canonical.rs: map, map2, as_ref", "src/quad.rs: map*", "src/triple.rs: map*", "src/quad.rs: into_parts, into_triple, with_graph", "src/triple.rs: into_parts, into_quad", "src/pattern/resource_or_variable.rs: ResourceOrVar::map"]}
{"id": "C37", "title": "Pattern map lookup", "statement": "After any sequence of insertions of (canonical triple pattern, value) pairs in a TriplePatternMap, get(t) yields exactly the inserted values whose pattern matches t, each as many times as there are distinct matching patterns it was inserted with; insert returns true exactly when that pair was not inserted before.", "quantifier": "every finite sequence of insertions, every triple", "why_tests_cant": "All sequences and all pattern shapes routed through nested maps.", "anchors": ["src/pattern/triple/map.rs: TriplePatternMap::{insert,get}"]}
{"id": "C38", "title": "Merging pattern maps", "statement": "union_with on two pattern maps (of the same shape) yields a map on which lookup returns the union of the values returned by both.", "quantifier": "every pair of pattern maps built by any insertions, every triple", "why_tests_cant": "Fails only when both maps have entries under the same term.", "anchors": ["src/pattern/triple/map.rs: union_with"]}
{"id": "C39", "title": "Isomorphic datasets are recognised", "statement": "For datasets of lexical terms, if some bijection between their blank nodes maps the quads of the first exactly onto the quads of the second, then find_bijection returns Some and are_isomorphic returns true.", "quantifier": "every pair of finite datasets related by a blank node bijection", "why_tests_cant": "All datasets and all bijections; the search prunes candidates by signatures and backtracks.", "anchors": ["src/dataset/isomorphism.rs: are_isomorphic, find_bijection"]}
{"id": "C40", "title": "A returned blank node mapping is a bijection", "statement": "Whenever find_bijection returns a pair of maps, they are mutually inverse bijections between the blank nodes occurring in the first dataset and those occurring in the second, and mapped blank nodes occur in the same number of statement positions.", "quantifier": "every pair of finite datasets of lexical terms", "why_tests_cant": "All datasets.", "anchors": ["src/dataset/isomorphism.rs: find_bijection, find_from_candidates"]}
{"id": "C41", "title": "Reported isomorphisms are real", "statement": "Whenever find_bijection returns a mapping, applying it to the quads of the first dataset gives exactly the quads of the second; hence are_isomorphic(a, b) is true only for isomorphic datasets.", "quantifier": "every pair of finite datasets of lexical terms", "why_tests_cant": "Fails for datasets whose statements without blank nodes differ, and for some datasets with several blank nodes per statement.", "anchors": ["src/dataset/isomorphism.rs: find_bijection_with, resource_matches_with, signature_matches_with"]}
{"id": "C42", "title": "Accepted blank node labels follow the grammar", "statement": "Every string accepted by BlankId::new / BlankIdBuf::new / from_suffix / FromStr is a BLANK_NODE_LABEL of the documented grammar; every BLANK_NODE_LABEL without '.' is accepted; a rejected string is returned unchanged in the error.", "quantifier": "every Unicode string", "why_tests_cant": "The set of strings is infinite and character classes span the Unicode range.", "anchors": ["src/blankid.rs: check, BlankId::new, BlankIdBuf::new, is_pn_char_base, is_pn_char_u, is_pn_char"]}
{"id": "C43", "title": "All grammatical blank node labels are accepted", "statement": "Every string matching the documented BLANK_NODE_LABEL production is accepted by BlankId::new.", "quantifier": "every Unicode string matching the production", "why_tests_cant": "Fails only on labels with an inner '.'.", "anchors": ["src/blankid.rs: check"]}
{"id": "C44", "title": "Numbered and suffixed blank node labels", "statement": "from_u8, from_u16, from_u32 and from_u64 always give a valid label, distinct numbers give distinct labels; suffix(from_suffix(s)) is s, and from_suffix is injective; suffix never panics on an accepted label.", "quantifier": "every number and every string", "why_tests_cant": "All numbers and strings.", "anchors": ["src/blankid.rs: from_u8, from_u16, from_u32, from_u64, from_suffix, suffix"]}
{"id": "C45", "title": "Blank node generators never repeat", "statement": "A Blank generator created with any prefix and start index (none and zero for new) returns pairwise distinct labels, numbered from the start index, in any run that does not overflow the counter; with an empty prefix, or a prefix that is itself a valid label suffix, every returned label is valid; two generators with different prefixes not ending in a digit and not extended by digits of the other never collide.", "quantifier": "every prefix, every start index, every number of calls", "why_tests_cant": "All prefixes and unboundedly many calls; numbering and prefix may interfere.", "anchors": ["src/term/generator/blank.rs: Blank", "src/term/generator/mod.rs: LocalGenerator"]}
{"id": "C46", "title": "String literal display can be read back", "statement": "The RDF display of a string is a double-quoted literal from which the original string is recovered by the N-Triples unescaping rules; it contains no line break, no unescaped quote inside, and the display function is injective, also in front of any continuation text.", "quantifier": "every Unicode string, every following text", "why_tests_cant": "All strings.", "anchors": ["src/display.rs: impl RdfDisplay for str"]}
{"id": "C47", "title": "IRI display", "statement": "For every valid IRI (in particular one without control characters, spaces, <, >, \", {, }, |, ^, ` and backslash) the RDF display is the IRI between angle brackets, unescaped, and reading up to the closing bracket recovers it. Other characters are written as \\u0x and two hexadecimal digits, which N-Triples does not have, but nothing is lost: whatever the text, a reader of these escapes recovers it, so different texts are displayed differently.", "quantifier": "every valid IRI string; every string for the escapes", "why_tests_cant": "All strings.", "anchors": ["src/display.rs: impl RdfDisplay for IriRef"]}
{"id": "C48", "title": "Literal display can be read back", "statement": "For literals with valid IRIs and language tags, distinct literals (value, datatype, language tag) have distinct RDF displays, an N-Triples reader recovers the literal, and owned and borrowed literals display identically.", "quantifier": "every literal", "why_tests_cant": "All strings, datatypes and tags.", "anchors": ["src/literal/mod.rs: impl RdfDisplay for Literal", "src/literal/ref.rs", "src/literal/type/mod.rs"]}
{"id": "C49", "title": "Term display distinguishes terms", "statement": "Distinct lexical terms (blank nodes, IRIs, literals) have distinct RDF displays and each display reads back, by N-Triples rules, as the same term.", "quantifier": "every lexical term", "why_tests_cant": "Fails only when comparing a blank node with a string literal of the same text.", "anchors": ["src/term/local/mod.rs: impl RdfDisplay for LocalTerm", "src/display.rs: impl RdfDisplay for str"]}
{"id": "C50", "title": "Dataset display can be read back", "statement": "The RDF display of a container is one line per statement, in iteration order; for containers of ground terms with valid IRIs and tags, reading the lines back recovers exactly the statements, so that equal displays imply equal contents.", "quantifier": "every reachable container of ground lexical terms", "why_tests_cant": "All contents and strings.", "anchors": ["src/dataset/impl/btree_dataset.rs: rdf_fmt", "src/quad.rs: rdf_fmt", "src/triple.rs: rdf_fmt"]}
{"id": "C51", "title": "Comparison of statements is lexicographic and lawful", "statement": "Quad and Triple equality is componentwise; their partial_cmp, across possibly different component types, is the lexicographic composition of the component comparisons with the default graph before any named graph, agrees with cmp, and is a total order when component orders are.", "quantifier": "every statements and every lawful component comparison", "why_tests_cant": "Law over all triples of values and all component types.", "anchors": ["src/quad.rs: PartialEq, PartialOrd, Ord", "src/triple.rs: PartialEq, PartialOrd, Ord"]}
{"id": "C52", "title": "Owned and borrowed terms compare alike", "statement": "Comparing an owned term, literal, literal type or lexical term with a borrowed one (==, partial_cmp, equivalent, hash) gives the same answer as comparing the owned values; as_* and into_* accessors succeed on exactly the values of their kind and return their content; conversions From and TryFrom round-trip; and the copy-on-write form of a reference copies nothing while that of a value handed over borrows nothing.", "quantifier": "every pair of terms", "why_tests_cant": "All terms.", "anchors": ["src/term/mod.rs", "src/term/ref.rs", "src/term/local/mod.rs", "src/term/local/ref.rs", "src/literal/mod.rs", "src/literal/ref.rs", "src/literal/type/ref.rs"]}
{"id": "C53", "title": "Looking up terms by borrowed forms", "statement": "Equal terms hash equally, for owned and borrowed forms alike, and every Borrow implementation provided for terms and literals is consistent: borrowing preserves equality, ordering and hashing in both directions.", "quantifier": "every pair of terms", "why_tests_cant": "All pairs.", "anchors": ["src/term/mod.rs: Hash", "src/term/local/mod.rs: Hash", "src/literal/mod.rs: Borrow<str>", "src/blankid.rs: Borrow"]}
{"id": "C54", "title": "The lexical interpretation is faithful", "statement": "With the unit interpretation, interpreting a term and listing the terms of the resource gives back exactly that term; iris, literals and blank ids of a resource are disjoint; is_anonymous holds exactly for resources with no IRI and no literal.", "quantifier": "every lexical term", "why_tests_cant": "All terms.", "anchors": ["src/interpretation/mod.rs", "src/interpretation/impl/none.rs"]}
{"id": "C55", "title": "Generated resources", "statement": "With a generator attached, new_resource returns the interpretation of the next generated identifier, and the composed interpretation behaves as the underlying one on every term; with the unit interpretation and a Blank generator all created resources are distinct blank nodes. into_parts gives back the interpretation and the generator as the calls left them.", "quantifier": "every number of calls", "why_tests_cant": "Unboundedly many calls.", "anchors": ["src/interpretation/impl/with_generator.rs: WithGenerator, WithLocalGenerator", "src/term/generator/blank.rs", "src/interpretation/impl/with_generator.rs: into_parts"]}
{"id": "C56", "title": "Serialised containers deserialise to equal containers", "statement": "For each of the four container types and any resource type with a faithful serialisation, deserialising the serialised sequence of a reachable container does not panic and gives an equal container; deserialising any sequence of statements gives the set of its elements; LocalTerm, Term and Literal themselves round-trip.", "quantifier": "every reachable container, every faithful resource codec", "why_tests_cant": "All contents and histories.", "anchors": ["src/dataset/impl/btree_dataset.rs: Serialize, Deserialize", "src/dataset/graph/impl/btree_graph.rs: Serialize, Deserialize", "src/dataset/impl/indexed_btree_dataset.rs: Serialize, Deserialize", "src/dataset/graph/impl/indexed_btree_graph.rs: Serialize, Deserialize", "src/term/mod.rs: serde", "src/quad.rs: serde"]}
{"id": "C57", "title": "Infallible containers seen through fallible traits", "statement": "The fallible dataset and graph views of an infallible container report no error and yield the same items in the same order, and their membership queries agree with the infallible ones.", "quantifier": "every container and query", "why_tests_cant": "All iterators.", "anchors": ["src/dataset/fallible.rs", "src/dataset/graph/fallible.rs", "src/utils.rs: InfallibleIterator"]}
{"id": "C58", "title": "Plain display of terms", "statement": "The plain (fmt::Display) form of a term writes an IRI and a blank node label as they are and a literal as in N-Triples; a blank node label so displayed is read back as that blank node; and two valid terms with the same plain display are equal, provided IRIs start with a letter, as every IRI does.", "quantifier": "every term with valid IRIs, tags and labels, and every continuation", "why_tests_cant": "All texts.", "anchors": ["src/term/mod.rs: Display", "src/term/local/mod.rs: Display", "src/literal/mod.rs: Display", "src/blankid.rs: Display"]}
{"id": "C59", "title": "Statement macros", "statement": "grdf_triple!, grdf_quad!, grdf_triples! and grdf_quads! compile and return exactly on the tokens of a statement (of a list of statements each followed by a dot), and give the statements written, in order, with typed, plain and IRI constants, blank nodes, variables and the graph in their place; the notation is unambiguous; and the only panics are those of a blank node label that the crate rejects, which no check made at compile time excludes.", "quantifier": "every list of tokens and every scope", "why_tests_cant": "Token lists are unbounded; a test checks the expansions written in it.", "anchors": ["src/macro.rs: grdf_triple, grdf_quad, grdf_triples, grdf_quads"]}
{"id": "C60", "title": "Quad pattern macro", "statement": "grdf_quad_pattern! compiles exactly on the tokens of a quad pattern (as grdf_quad! with ?variables in addition), and gives the pattern written.", "quantifier": "every list of tokens and every scope", "why_tests_cant": "Token lists are unbounded; the repository has no test of this macro.", "anchors": ["src/macro.rs: grdf_quad_pattern"]}
{"id": "C61", "title": "Exactly what union_with keeps", "statement": "However a partial pattern map was built with insertions and union_with (nested in any way), lookup yields each value once for every matching pattern it is held with, and insert reports whether the pair is new, where the union of two maps holds the pairs of the second one, and those of the first one whose pattern does not share its first given term with a pattern inserted on the way to the second one.", "quantifier": "every finite tree of insertions and unions, every triple, each of the six kinds of partial pattern map", "why_tests_cant": "All nestings of unions and insertions, including keys of entries that were themselves overwritten.", "anchors": ["src/pattern/triple/map.rs: union_with, insert, get"]}
{"id": "C62", "title": "Exactly what are_isomorphic accepts", "statement": "are_isomorphic returns true exactly when the two datasets have the same number of quads and there is a one-to-one renaming between their blank nodes such that, for each blank node b, the quads around b and those around its image (once for each position) can be paired so that paired quads are equal up to the names of blank nodes, and can be paired so that paired quads have the blank nodes not greater than b, renamed, at the same positions; the mapping returned by find_bijection is such a renaming.", "quantifier": "every pair of finite datasets of lexical terms", "why_tests_cant": "An exact characterisation of a backtracking search with greedy matching, over all datasets.", "anchors": ["src/dataset/isomorphism.rs: are_isomorphic, find_bijection, find_from_candidates, signature_matches_with"]}
{"id": "C63", "title": "Exactly which subjects, predicates and objects are listed", "statement": "After any history in which a resource repeated within an inserted statement already occurs, subjects() of an indexed container lists, once each, exactly the terms such that the latest call that added or took out a statement with that subject added it, and subject_count() counts them; likewise for predicates() and objects().", "quantifier": "every such history of insert, remove, remove_graph, extract_pattern_matching and conversion, every resource type, both indexed containers, each position", "why_tests_cant": "The lists depend on the whole history, not only on the content; the claim fixes them after every history.", "anchors": ["src/dataset/impl/indexed_btree_dataset.rs: insert, remove_by_index, subjects, predicates, objects", "src/dataset/graph/impl/indexed_btree_graph.rs: insert, remove, subjects, predicates, objects"]}
{"id": "C64", "title": "Exactly which graph names are listed", "statement": "After any history in which a resource repeated within an inserted quad already occurs, and as long as every term that has been a graph name stops occurring only by taking out quads of its graph, named_graphs() lists, once each, exactly the terms that have been the name of a graph with a quad and have occurred somewhere in the dataset ever since; remove_graph(Some(g)) returns a graph exactly for these names and takes out exactly the quads of that graph. As soon as such a term stops occurring without a quad of its graph being taken out, named_graphs() panics.", "quantifier": "every such history of insert, remove, remove_graph, extract_pattern_matching and conversion, every resource type, every graph name", "why_tests_cant": "The set depends on the whole history through stale slots; the claim covers every interleaving.", "anchors": ["src/dataset/impl/indexed_btree_dataset.rs: insert, remove_by_index, remove_graph, named_graphs, named_graph_count"]}
{"id": "C65", "title": "Exactly what the searches yield", "statement": "A container keeps its statements in places: an inserted statement takes the place emptied last, or a new place after the others when none is empty. After any history in which a resource repeated within an inserted statement already occurs, pattern_matching (of both indexed containers) and multi_pattern_matching end without panic and yield exactly the matching statements of the first n places, in the order of the places. If the pattern gives the subject, n covers all places. Otherwise place n is the end or an empty place that is first or follows a statement; if the pattern gives nothing it is the first empty place; if the pattern repeats no term it is the first empty place that is first or follows a match.", "quantifier": "every such history of insert, remove, remove_graph, extract_pattern_matching and conversion, every resource type, every canonical pattern and pattern over lists", "why_tests_cant": "What a search misses depends on the whole history through the vacant slots; the claim fixes the result, and its order, after every history.", "anchors": ["src/dataset/impl/indexed_btree_dataset.rs: pattern_matching, multi_pattern_matching, PatternMatching::next, MultiPatternMatching::next", "src/dataset/graph/impl/indexed_btree_graph.rs: pattern_matching, PatternMatching::next"]}
{"id": "C66", "title": "Extraction takes out what the search yields", "statement": "After any history, n calls to the iterator returned by extract_pattern_matching yield the first n quads that pattern_matching would yield in the same state, in the same order, and the iterator ends exactly when there are fewer than n.", "quantifier": "every reachable IndexedBTreeDataset, every canonical pattern, every n", "why_tests_cant": "Extraction changes the slots and the index sets while its constraints, computed before, are being scanned.", "anchors": ["src/dataset/impl/indexed_btree_dataset.rs: extract_pattern_matching, ExtractPatternMatching::next, pattern_matching"]}
{"id": "C67", "title": "Exactly what the membership queries answer", "statement": "After any history in which a resource repeated within an inserted statement already occurs, contains_quad_predicate, contains_quad_object, contains_named_graph, contains_triple_predicate and contains_triple_object on an indexed container answer true exactly when a contained statement has the term at that position and the first place of the container is not empty.", "quantifier": "every such history of insert, remove, remove_graph, extract_pattern_matching and conversion, every resource type, every term", "why_tests_cant": "A wrong answer needs a removal of the statement in the first place; the claim fixes the answer after every history.", "anchors": ["src/dataset/mod.rs: PatternMatchingDataset", "src/dataset/graph/mod.rs: PatternMatchingGraph", "src/dataset/impl/indexed_btree_dataset.rs: PatternMatching::next", "src/dataset/graph/impl/indexed_btree_graph.rs: PatternMatching::next"]}
{"id": "C68", "title": "Exactly what binding a position does", "statement": "On the canonical form of a triple pattern, set_subject, set_predicate and set_object give the canonical form of the pattern with the term in all the places of the variable bound (in the place of a bound term, for a position that holds a term), except that set_predicate on ?x ?y ?x gives _ t _ and set_object on ?x p ?x gives _ p t; and the setters of the parts of a pattern report the former value of the position, an object equal to the predicate excepted.", "quantifier": "every triple pattern and every term", "why_tests_cant": "Quantifies over all patterns and all terms; two of the shapes behave differently from all others.", "anchors": ["src/pattern/triple/canonical.rs: set_subject, set_predicate, set_object"]}
{"id": "C69", "title": "Canonical patterns are canonical", "statement": "Every canonical pattern is the canonical form of some pattern; two triple patterns (two quad patterns) have equal canonical forms exactly if they are equal up to the names of their variables; and if there are two different terms, exactly if they stand for the same statements.", "quantifier": "every pair of patterns", "why_tests_cant": "A statement about the equality of infinite sets of statements, for all pairs of patterns.", "anchors": ["src/pattern/triple/canonical.rs: from_pattern", "src/pattern/quad/canonical.rs: from_pattern"]}
{"id": "C70", "title": "Exactly which resources are reported and counted", "statement": "The occurrences of a resource in a container are kept in records, each in one of them, and at most one record of a resource is current. A new statement adds its occurrences of the resource to the current record; if there is none, each occurrence gets a record of its own and one of these becomes current. When a statement is taken out its occurrences leave their records, and if any record is left empty it goes and the resource has no current record any more. After any history, resources lists in ascending order exactly the resources with a current record, contains_resource answers accordingly, and resource_count is the total number of records.", "quantifier": "every history of insertions, removals, graph removals, extractions and conversions, of each of the four containers (the count: the two indexed ones), and every resource", "why_tests_cant": "Unbounded histories; the difference with the resources that occur only shows for certain interleavings of repeated resources and removals.", "anchors": ["src/dataset/impl/btree_dataset.rs: insert, remove, resources, contains_resource", "src/dataset/impl/indexed_btree_dataset.rs: insert, remove, remove_graph, resource_count", "src/dataset/graph/impl/btree_graph.rs", "src/dataset/graph/impl/indexed_btree_graph.rs"]}
{"id": "C71", "title": "Exactly what searches find after any history", "statement": "After any history, pattern_matching of the indexed containers and multi_pattern_matching end without panic and yield, in the order of the places, exactly the statements of the first places for which: each term given in the pattern (or a term of the list given) has that occurrence in its current record, a repeated variable stands for occurrences in the same record, and a given default graph for no graph. The search goes to the end if the subject is given, and otherwise ends or stops at an empty place as in C65. contains_quad_subject and contains_triple_subject answer true exactly if some statement has the subject in its current record; the other methods looking for one term do so unless the first place is empty; and contains_quad and contains_triple as the traits provide them (both containers override them by contains, C25) answer true exactly if every occurrence in the statement is in the current record of its term.", "quantifier": "every history of insertions, removals, graph removals, extractions and conversions of the two indexed containers, every pattern, term and statement", "why_tests_cant": "Unbounded histories; what is missed depends on which records earlier statements left behind.", "anchors": ["src/dataset/impl/indexed_btree_dataset.rs: pattern_matching, multi_pattern_matching", "src/dataset/graph/impl/indexed_btree_graph.rs: pattern_matching", "src/dataset/mod.rs: contains_quad_*", "src/dataset/graph/mod.rs: contains_triple_*"]}
{"id": "C72", "title": "Exactly what the lists of terms contain after any history", "statement": "A record (C70) is listed at a position if the latest call that put an occurrence at that position into it or took one out of it put one in; conversion lists every record at the positions of its occurrences. After any history, subjects, predicates and objects of the indexed containers list each resource as often as it has records listed at that position, without panic, and the counts count them. A record is listed as a graph name if an occurrence as graph name was once put into it. As long as such records are emptied only by taking out statements they hold as graph name, named_graphs lists each resource as often as it has records listed as graph name, the count counts them, and remove_graph returns a graph exactly if the current record of the name is one; as soon as one is emptied otherwise, named_graphs panics, and goes on panicking until a new quad is inserted with a term that contains_resource denies. After any history, remove_graph(Some(g)) takes out exactly the quads with g as graph name in the current record of g, returns nothing only if there are none, and a graph that it returns has exactly their triples.", "quantifier": "every history of insertions, removals, graph removals, extractions and conversions of the two indexed containers, and every resource", "why_tests_cant": "Unbounded histories; what is listed depends on the order of all the calls that touched each record.", "anchors": ["src/dataset/impl/indexed_btree_dataset.rs: insert, remove_by_index, remove_graph, subjects, predicates, objects, named_graphs", "src/dataset/graph/impl/indexed_btree_graph.rs: insert, remove, subjects, predicates, objects"]}
{"id": "C73", "title": "What the iterators over objects and the fallible membership queries tell after any history", "statement": "After any history, quad_objects(g, s, p) (triple_objects(s, p)) yields the objects of exactly those contained statements s p o (in g) whose subject, predicate and graph name have that occurrence in the current record of their term, in the order of the places. quad_predicates_objects (triple_predicates_objects) goes through what predicates() lists and pairs each entry that has such objects with them, so that a predicate with two records listed as predicate is yielded twice. try_contains_triple answers true exactly when a contained statement with that triple has its three terms in their current records.", "quantifier": "all histories of an IndexedBTreeDataset or IndexedBTreeGraph, all arguments, both behaviours of the B-tree on equal items", "why_tests_cant": "the answers depend on the whole history of records; the wrong ones need a new resource repeated within one statement", "anchors": ["src/dataset/mod.rs:290-321", "src/dataset/mod.rs:364-413", "src/dataset/graph/mod.rs:122-148", "src/dataset/graph/mod.rs:168-210", "src/dataset/fallible.rs:54-60", "src/dataset/graph/fallible.rs:49-55"]}
{"id": "C74", "title": "What are_isomorphic decides is an equivalence", "statement": "are_isomorphic returns true exactly when the datasets have the same number of quads and a renaming, one to one on the blank nodes of the first, maps the quads that have blank nodes onto those of the second as far as only blank nodes and their positions are looked at, with multiplicity, and separately makes the quads around each blank node equal to those around its image up to the names of blank nodes; the mapping returned by find_bijection is such a renaming. Hence are_isomorphic is reflexive, symmetric and transitive, its answer does not change when the quads of either dataset are reordered or its blank nodes renamed one to one, and it does not depend on the order on terms by which the search proceeds.", "quantifier": "every pair (triple) of finite datasets of lexical terms, every one-to-one renaming, every lawful order", "why_tests_cant": "The search is asymmetric and guided by the order of the blank nodes; that its answer is not takes an argument over all datasets.", "anchors": ["src/dataset/isomorphism.rs: are_isomorphic, find_bijection, find_from_candidates, signature_matches_with"]}
{"id": "C75", "title": "are_isomorphic_with under any interpretation", "statement": "With any reverse interpretation, find_bijection_with never panics, are_isomorphic_with says whether it returns a mapping, and what it returns are inverse bijections between the nameless resources of both datasets, which occur equally often. When resources that share a term with a third one share a term (as when every resource has at most one term, or every term names at most one resource), are_isomorphic_with returns true exactly when some renaming keeps the places of the nameless resources and, separately, the quads around each of them up to sharing terms; then it is reflexive, symmetric and transitive and depends neither on the order of quads and resources nor on the choice of nameless resources or among resources that share a term. Otherwise it need not be transitive and may reject a dataset in which only a resource was replaced by one that shares a term with it.", "quantifier": "every resource type with a lawful order, every reverse interpretation, every pair (triple) of finite datasets", "why_tests_cant": "Greedy matching inside a backtracking search; whether its answer depends on the order of the quads needs an argument over all interpretations and datasets.", "anchors": ["src/dataset/isomorphism.rs: are_isomorphic_with, find_bijection_with, resource_matches, resource_matches_with", "src/interpretation/mod.rs: ReverseInterpretation"]}
{"id": "C76", "title": "The way of a search", "statement": "For every pattern that does not give the subject, and after any history, pattern_matching of the indexed containers and multi_pattern_matching end without panic and yield what this walk through the places yields: at a statement the parts of the pattern are tested in the order predicate, object, graph (by terms if every resource repeated within an inserted statement already occurred, in general by records as in C71); if all hold the statement is yielded and the walk goes to the next place; if a repeated variable is the first part to fail it goes to the next place; if a given part is the first to fail it goes to the next statement having that part, and ends if there is none; it stops at an empty place. There is exactly one such walk, and it yields exactly the matching statements before the place where it stops. If the pattern gives no part after a repeated one, this is the end or the first empty place that comes first or just after a statement having the given parts.", "quantifier": "every history of insertions, removals, graph removals, extractions and conversions of the two indexed containers, every canonical pattern (over terms or lists of terms) with unbound subject, every resource type", "why_tests_cant": "Unbounded histories and places; which part of the pattern fails first decides over which empty places the search jumps.", "anchors": ["src/dataset/impl/indexed_btree_dataset.rs: PatternMatching::next, MultiPatternMatching::next, PredicateConstraints::next, ObjectConstraints::next, GraphConstraints::next", "src/dataset/graph/impl/indexed_btree_graph.rs: PatternMatching::next"]}
{"id": "C77", "title": "No answer depends on the shape of the trees", "statement": "Whenever insert, remove, contains, the lookup of a resource, remove_graph, an extraction or a conversion searches one of the B-trees of a container, the comparator passed to it answers without panic on every item of the tree, with Less on the first items, Equal on at most one and Greater on the rest. Hence every search that compares items one after another between the greatest found smaller and the least found greater, whatever the shape of the tree and the search inside a node, ends without panic at the same place, and get, insert and remove do what the model says. In particular after any history this holds of both trees of each of the four containers, for any resource or statement looked for.", "quantifier": "every history of calls on the four containers, every resource type with a lawful order, every order of comparisons", "why_tests_cant": "The comparator reads slabs that are being changed; a stale key in a tree makes a panic that only a tree of the right shape, after the right history, runs into.", "anchors": ["src/dataset/impl/btree_dataset.rs: resource_cmp, resource_index_cmp, quad_cmp, quad_index_cmp, insert, remove", "src/dataset/impl/indexed_btree_dataset.rs: the same, remove_by_index", "src/dataset/graph/impl/btree_graph.rs", "src/dataset/graph/impl/indexed_btree_graph.rs"]}
{"id": "C78", "title": "Which mapping between isomorphic datasets is returned", "statement": "If find_bijection, or find_bijection_with an interpretation whose names agree, returns a mapping, it is the first among the renamings that keep what is compared (C74, C75): at the least blank node of the first dataset at which another one differs from it, it has the lesser value. There is only one such renaming. For any interpretation, the result is the same whichever order the quads of the two datasets are listed in. A dataset is mapped to the same quads in another order by the identity.", "quantifier": "every two datasets of quads, every resource type with a lawful order, every interpretation whose names agree (every interpretation for the order of the quads)", "why_tests_cant": "There are up to n! renamings of n blank nodes to compare with, over unboundedly many datasets; tests look at one result.", "anchors": ["src/dataset/isomorphism.rs: find_bijection, find_bijection_with, find_from_candidates, collect_signatures"]}
{"id": "C79", "title": "Isomorphism is exact when blank nodes are not entangled", "statement": "Let one of two datasets without repeated quads be untangled: in every set of its frames (quads reduced to their blank nodes), if some frames have several blank nodes, one of these has a blank node that, among the frames of the set with blank nodes at the same positions, is in this frame only or in quads of one shape only. Then a mapping returned by find_bijection, applied to the first dataset, gives the second except for quads without blank nodes. If these are the same in both, are_isomorphic says true exactly when the datasets are isomorphic. Datasets whose blank nodes form trees (RDF lists, nested nodes), whose quads sharing a blank node are alike, or that have at most one blank node in a quad are untangled. There are entangled datasets that are not isomorphic and are taken for it.", "quantifier": "every two datasets of lexical quads without repetition, one of them untangled", "why_tests_cant": "Trees and lists of any size and depth, any renaming and order; a wrong acceptance shows up only for particular pairs of datasets.", "anchors": ["src/dataset/isomorphism.rs: are_isomorphic, find_bijection, find_from_candidates, BlankSignature::matches"]}
{"id": "C80", "title": "What RDF displays say, blank nodes included", "statement": "Blank nodes are displayed as strings (C49), and that is all that is lost: reading the RDF display of any valid lexical term gives the term, with a blank node replaced by the xsd:string literal that is its label. Two valid terms are displayed alike exactly when they are equal or one is a blank node and the other the string literal of its label. Reading the display of a container of any valid statements gives its statements in order of iteration, so replaced, and two containers are displayed alike exactly when their statements in order of iteration, so replaced, are the same.", "quantifier": "every valid lexical term, every history of each of the four containers with valid statements", "why_tests_cant": "All terms, all texts and all histories; that no other two terms or containers are confused is a claim about all pairs.", "anchors": ["src/display.rs: impl RdfDisplay for str, IriRef, LangTag", "src/term/local/mod.rs: impl RdfDisplay for LocalTerm", "src/dataset/impl/btree_dataset.rs, src/dataset/impl/indexed_btree_dataset.rs: impl RdfDisplay", "src/dataset/graph/impl/btree_graph.rs, src/dataset/graph/impl/indexed_btree_graph.rs: impl RdfDisplay"]}
{"id": "C81", "title": "Isomorphism of datasets of resources", "statement": "Let resources that share a term with a third one share a term, and let no two quads of a dataset be the same up to resources that share a term. Then are_isomorphic_with says true for datasets that are isomorphic: a renaming of the nameless resources, one to one on the first, carries the quads of each to quads of the other, where other resources may be exchanged for ones that share a term. If one of the datasets is untangled (C79, with nameless resources for blank nodes), a mapping returned by find_bijection_with carries the quads with nameless resources to each other; if the quads without them are the same too, up to shared terms, are_isomorphic_with says true exactly when the datasets are isomorphic.", "quantifier": "every interpretation whose names agree, every resource type with a lawful order, every two datasets whose quads say different things", "why_tests_cant": "Interpretations with any number of names per resource and resources per name, datasets of any size, all renamings.", "anchors": ["src/dataset/isomorphism.rs: are_isomorphic_with, find_bijection_with, BlankSignature::matches", "src/interpretation/mod.rs: ReverseInterpretation"]}
{"id": "C82", "title": "Isomorphism of containers", "statement": "Called with any two of BTreeDataset, BTreeGraph, IndexedBTreeDataset and IndexedBTreeGraph (graphs stand for their triples in the default graph), after any histories of calls and conversions, find_bijection_with and are_isomorphic_with do not panic, and what they return depends only on the quads in the containers. A container is isomorphic to any other with the same quads when names agree. are_isomorphic says true for containers of terms whose contents are isomorphic; if one content is untangled (C79) and both have the same quads without blank nodes, it says true exactly then. The same holds for resources under the conditions of C81.", "quantifier": "every two containers of the four kinds, every two histories, every interpretation, every resource type with a lawful order", "why_tests_cant": "All histories of two containers of all combinations of kinds.", "anchors": ["src/dataset/isomorphism.rs: are_isomorphic, are_isomorphic_with, find_bijection_with", "src/dataset/mod.rs: TraversableDataset for G", "src/utils.rs: TripleToQuadIterator::next", "src/dataset/impl/btree_dataset.rs: TraversableDataset::quads", "src/dataset/impl/indexed_btree_dataset.rs: TraversableDataset::quads", "src/dataset/graph/impl/btree_graph.rs: TraversableGraph::triples", "src/dataset/graph/impl/indexed_btree_graph.rs: TraversableGraph::triples"]}
{"id": "C83", "title": "Exactly which documents are read, and as what", "statement": "A document (a value of a self-describing format) is read as a blank node exactly when it is a string that is an accepted label, as an IRI when it is a string that is one, as a literal when it is the pair of its value and type or a map in which each of the two fields occurs exactly once, whatever other fields there are; as a triple when it is a sequence of three documents of terms, as a quad when it is one of four, the last of which is null for the default graph. No document stands for two terms. A container is read from a document exactly when the document is a sequence of documents of statements, then holds exactly these statements, and is refused otherwise, without panic.", "quantifier": "every document, every writing of IRIs and tags that is read back, all four containers", "why_tests_cant": "Documents are unbounded trees; that none else is accepted is a statement about all of them.", "anchors": ["src/blankid.rs: Deserialize for BlankIdBuf", "src/literal/mod.rs, src/literal/type/mod.rs: derived Deserialize", "src/term/mod.rs, src/term/local/mod.rs: derived Deserialize, untagged", "src/quad.rs, src/triple.rs, src/pattern/resource_or_variable.rs: derived Deserialize", "src/dataset/impl/btree_dataset.rs, src/dataset/impl/indexed_btree_dataset.rs: Deserialize", "src/dataset/graph/impl/btree_graph.rs, src/dataset/graph/impl/indexed_btree_graph.rs: Deserialize"]}
{"id": "C84", "title": "Every public call on a container returns, except named_graphs", "statement": "After any history of calls on any of the four containers, every public method neither panics nor loops: inserting, removing, extending, membership, iterating by reference and by value, comparing with any container that can be traversed, hashing, writing as a document or as text, listing resources and positions, searching by any pattern or list pattern, extracting any number of matches, removing a graph, the methods provided by the dataset and graph traits and by their fallible versions (also for a graph used as a dataset), conversion, collecting, reading any document and searching for an isomorphism. The only exception is named_graphs of the indexed dataset, which may read a vacant slot and panics in no other way.", "quantifier": "all histories, all arguments, any capacity of the slab, any lawful total order on resources", "why_tests_cant": "Every indexing expression is a possible panic; that none is reached is a statement about all sequences of calls.", "anchors": ["src/dataset/impl/btree_dataset.rs", "src/dataset/impl/indexed_btree_dataset.rs", "src/dataset/graph/impl/btree_graph.rs", "src/dataset/graph/impl/indexed_btree_graph.rs", "src/dataset/mod.rs: PatternMatchingDataset", "src/dataset/graph/mod.rs: PatternMatchingGraph", "src/dataset/fallible.rs", "src/dataset/graph/fallible.rs", "src/dataset/isomorphism.rs: find_bijection_with"]}
{"id": "C85", "title": "An iterator over matches that has ended stays ended", "statement": "However many times next is called, also after it has returned None, the iterators of pattern_matching, multi_pattern_matching and extract_pattern_matching return the items that running them to the end gives, in order, and then None for ever; extraction no longer changes the dataset then. The same for a graph used as a dataset, and for the iterators over objects and of the fallible traits, over any iterator that has this property.", "quantifier": "all histories, all patterns, any number of calls, any capacity of the slab", "why_tests_cant": "The iterators are not declared fused: they return early from the middle of a loop with constraints partly advanced, and the next call starts again from that state.", "anchors": ["src/dataset/impl/indexed_btree_dataset.rs: PatternMatching::next, MultiPatternMatching::next, ExtractPatternMatching::next", "src/dataset/graph/impl/indexed_btree_graph.rs: PatternMatching::next", "src/dataset/mod.rs: QuadObjects::next, quad_pattern_matching", "src/dataset/graph/mod.rs: TripleObjects::next", "src/utils.rs: InfallibleIterator::next, TripleToQuadIterator::next, OptionIterator::next"]}
{"id": "C86", "title": "Which quad patterns compile", "statement": "grdf_quad_pattern! compiles exactly on three or four positions that are each ?x for a variable or the name of a Rust variable of type Term, and gives the pattern written. No list of tokens, with constants or without, can be read as two different patterns.", "quantifier": "every list of tokens and every scope", "why_tests_cant": "Token lists are unbounded, and a test cannot contain a program that does not compile.", "anchors": ["src/macro.rs: grdf_quad_pattern"]}
{"id": "C87", "title": "Display under format options", "statement": "When a term is displayed with a width, fill, alignment or precision, rdf_fmt applies these options to each character of a string or IRI that is not escaped, by itself, and to a language tag as a whole, and nothing else; fmt::Display applies them to a whole IRI or blank node identifier. Hence a width alone leaves the text as it is exactly when no such part is shorter, and a precision alone exactly when none is longer; with an ordinary fill character a string is displayed as another string, and read back as it. Quads, triples and containers are displayed as without options. Without options the texts are those of C46 to C50 and C58. The display of a borrowed literal is that of the literal.", "quantifier": "all options, all lexical terms, statements and containers, all buffers already partly filled", "why_tests_cant": "Options, lengths and positions of escaped characters combine without bound; the tests only use {}.", "anchors": ["src/display.rs: RdfDisplay for str, IriRef, LangTag, RdfDisplayed", "src/literal/mod.rs: RdfDisplay, Display", "src/literal/ref.rs: RdfDisplay, Display", "src/literal/type/mod.rs: RdfDisplay", "src/literal/type/ref.rs: RdfDisplay", "src/term/mod.rs: RdfDisplay, Display", "src/term/local/mod.rs: RdfDisplay, Display", "src/quad.rs: RdfDisplay, Display", "src/triple.rs: RdfDisplay, Display"]}
{"id": "C88", "title": "Display to a buffer that fails", "statement": "Displaying a term, a statement or a container to a buffer whose writes can fail returns an error exactly when a write fails. The write that fails is the last one; what was given to the buffer up to there is the beginning of the text, and all of it if no write fails.", "quantifier": "all buffers, with any state and any rule for failing, all options, all lexical terms, statements and containers", "why_tests_cant": "A test would have to make each write of each display fail in turn.", "anchors": ["src/display.rs: RdfDisplay for str, IriRef, LangTag", "src/literal/mod.rs: RdfDisplay", "src/literal/type/mod.rs: RdfDisplay", "src/quad.rs: RdfDisplay, Display", "src/triple.rs: RdfDisplay, Display", "src/dataset/impl/btree_dataset.rs: RdfDisplay", "src/dataset/impl/indexed_btree_dataset.rs: RdfDisplay", "src/dataset/graph/impl/btree_graph.rs: RdfDisplay", "src/dataset/graph/impl/indexed_btree_graph.rs: RdfDisplay"]}
{"id": "C89", "title": "Mapping with a function that has a state", "statement": "map and map2 on canonical quad patterns and map on quads and triples call the given function exactly once on each given term, in the order subject, predicate, object, graph, put each result in the place of its argument (map2: in the same place of two patterns) and change nothing else. map_all calls its four functions once each in this order. A function that panics is not called again, and what it did before stands. With a function without effects the result is the one of C36.", "quantifier": "every canonical quad pattern, quad and triple, every function with any state and any effect, panics included", "why_tests_cant": "All functions with all states, and fifteen types of patterns each with its own map and map2.", "anchors": ["src/pattern/quad/canonical.rs: map, map2", "src/quad.rs: Quad::map, map_all, map_subject, map_predicate, map_object, map_graph", "src/triple.rs: Triple::map, map_subject, map_predicate, map_object"]}
{"id": "C90", "title": "Terms that the order does not tell apart", "statement": "The containers see terms only through their order. Renaming all terms by a function that keeps every comparison, and may merge terms that compare as equal, changes nothing but the names: every session of calls, conversions and panics included, has the same transcript up to the renaming. When the order is a total preorder, in which different spellings may compare as equal, some renaming merges exactly the terms that compare as equal, and each of the four containers holds a set of statements up to spelling: insert, remove, contains, iteration, len and is_empty treat like statements as one. Every term that is returned is identical to a term inserted earlier, never to a term that was only looked for.", "quantifier": "all types of terms with any comparison (renaming, spelling) or any total preorder (sets), all renamings that keep comparisons, all sequences of calls, also across from_non_indexed", "why_tests_cant": "All orders, all renamings and all sessions; tests use types whose order tells all terms apart.", "anchors": ["src/dataset/impl/btree_dataset.rs: insert, remove, contains, iter, into_iter, resources, contains_resource", "src/dataset/graph/impl/btree_graph.rs: insert, remove, contains, iter, into_iter, resources, contains_resource", "src/dataset/impl/indexed_btree_dataset.rs: all methods, from_non_indexed, pattern matching, remove_graph", "src/dataset/graph/impl/indexed_btree_graph.rs: all methods, from_non_indexed, pattern matching"]}
{"id": "C91", "title": "The spelling of what a container holds", "statement": "When the order does not tell some terms apart, the spelling of what a container holds is determined. An insertion of a statement like one that is held changes nothing. Any other insertion adds one statement, made of the listed spellings of its terms and of its own spelling of the terms that were not listed; nothing else that is held or listed is respelled. A removal takes away the like statement and respells nothing. What a pattern matches is among the statements listed, letter for letter; an extraction splits the list into what it returns and what stays; remove_graph takes away statements of that graph only; from_non_indexed keeps both lists as they are.", "quantifier": "all types of terms with any total preorder, all states reached by any session on the four containers, conversion to the indexed containers included, all arguments", "why_tests_cant": "All preorders, all sessions and all arguments; tests use types whose order tells all terms apart, for which there is one spelling.", "anchors": ["src/dataset/impl/btree_dataset.rs: insert, remove, iter, resources", "src/dataset/graph/impl/btree_graph.rs: insert, remove, iter, resources", "src/dataset/impl/indexed_btree_dataset.rs: insert, remove, remove_graph, from_non_indexed, pattern_matching, multi_pattern_matching, extract_pattern_matching", "src/dataset/graph/impl/indexed_btree_graph.rs: insert, remove, from_non_indexed, pattern_matching"]}
{"id": "C92", "title": "The lists of terms, in order, after every history", "statement": "Keep the records of resources in places: a new record goes to the place emptied last, or to a new one; an occurrence goes to the record that was current before its statement was inserted; a record goes with its last occurrence. Marks on places say where a resource was used; they go with the occurrence, but that of a graph name only with the record. After every history of calls, subjects, predicates, objects and named_graphs give the resources in the marked places, in the order of the places, and as many as their count says. The first three never meet an empty place; named_graphs panics exactly if it does. remove_graph of a name returns a graph exactly if the place of the current record of the name is marked as that of a graph name, with exactly the triples of the quads in this record that have the name. contains, contains_resource and the number of resources are those of the book as well.", "quantifier": "all resource types with a total order, all histories of calls on the four containers, conversion, remove_graph and extract_pattern_matching included, all arguments, whether or not the tree replaces equal items", "why_tests_cant": "All histories, of any length: the order of the lists depends on which places were emptied when, and a mark may outlive many calls before a new record gets the place.", "anchors": ["src/dataset/impl/indexed_btree_dataset.rs: insert, remove, remove_graph, from_non_indexed, subjects, predicates, objects, named_graphs, extract_pattern_matching", "src/dataset/graph/impl/indexed_btree_graph.rs: insert, remove, from_non_indexed, subjects, predicates, objects", "src/dataset/impl/btree_dataset.rs: insert, remove, contains_resource, resources", "src/dataset/graph/impl/btree_graph.rs: insert, remove, contains_resource, resources"]}
{"id": "C93", "title": "The iterators of the containers, call by call", "statement": "Let next be called any number of times on an iterator of a container, also after it has ended and, with panics caught, after a panic. The borrowing and the consuming iterator over statements give the statements held in ascending order, one per call, and then nothing, each time. The iterator over resources does so with the resources that contains_resource knows. The iterators over subjects, predicates, objects and graph names go through the marked places of C92: the call for a place gives its resource, and panics if the place is empty, which only that over graph names meets; the calls after it go on behind this place. The iterators that wrap others (infallible, triples as quads, optional) give the items of the inner one, changed, in the same calls.", "quantifier": "all resource types with a total order, all histories of calls on the four containers, any number of calls to next; for the wrappers, any inner iterator", "why_tests_cant": "All histories, any number of calls, and calls after the end or after a panic, which loops do not make.", "anchors": ["src/dataset/impl/btree_dataset.rs: Quads, IntoTriples, Resources", "src/dataset/graph/impl/btree_graph.rs: Triples, IntoTriples, Resources", "src/dataset/impl/indexed_btree_dataset.rs: Quads, IntoTriples, Resources, Subjects, Predicates, Objects, NamedGraphs", "src/dataset/graph/impl/indexed_btree_graph.rs: Triples, IntoTriples, Resources, Subjects, Predicates, Objects", "src/utils.rs: InfallibleIterator, TripleToQuadIterator, OptionIterator"]}
{"id": "C94", "title": "The slab of the crate slab answers as the slab of the model", "statement": "The slab that keeps its vacant entries in a linked list threaded through the entries, as the crate slab does, answers every list of calls of insert, remove, indexing, changing a value in place, vacant_entry and len as the slab with a stack of vacant keys, from a new slab on; with panics caught, also after panics. The conversion to an indexed container (into_iter, map, collect) never panics on it and gives a slab that again answers every list of calls as that of the model. The iterator gives exactly the keys that can be read and their values, ascending.", "quantifier": "all types of values, all lists of calls, all functions mapped over the values", "why_tests_cant": "All lists of calls, of any length, before and after the conversion.", "anchors": ["src/dataset/impl/btree_dataset.rs: BTreeDataset (the slabs resources and quads)", "src/dataset/graph/impl/btree_graph.rs: BTreeGraph", "src/dataset/impl/indexed_btree_dataset.rs: From<BTreeDataset>", "src/dataset/graph/impl/indexed_btree_graph.rs: From<BTreeGraph>"]}
{"id": "C95", "title": "Debug output of the containers", "statement": "After any history, formatting a container with {:?} or {:#?} does not panic. {:?} gives the statements it holds, ascending, on one line between braces. {:#?} gives them on lines of their own, indented by depth. The output depends on the contents only: plain and indexed containers that hold the same statements print alike, whatever their histories. It tells different contents apart if the end of the text of a resource can be told from a comma or parenthesis that follows, which holds of numbers.", "quantifier": "all resource types with a total order and any texts, all histories of calls on the four containers, both formats", "why_tests_cant": "All histories and contents, all texts of resources.", "anchors": ["src/dataset/impl/btree_dataset.rs: Debug for BTreeDataset", "src/dataset/graph/impl/btree_graph.rs: Debug for BTreeGraph", "src/dataset/impl/indexed_btree_dataset.rs: Debug for IndexedBTreeDataset", "src/dataset/graph/impl/indexed_btree_graph.rs: Debug for IndexedBTreeGraph", "src/quad.rs: derive(Debug)", "src/triple.rs: derive(Debug)"]}
{"id": "C96", "title": "Debug output of terms", "statement": "{:?} gives a term (LocalTerm, Term, Literal, LiteralType, their borrowed forms, IdRef) on one line, {:#?} on lines indented by depth, with strings between quotation marks and escaped. Strings can be told apart and their end can be told, whatever characters std takes to be printable; the characters that are not printable are replaced by ones from space to tilde. Terms and identifiers can be told apart, and their end can be told, if this is so for IRIs and language tags. So two containers of terms that print alike in either format hold the same statements.", "quantifier": "all terms, all sets of printable characters, all texts of IRIs and language tags whose end can be told, both formats, all histories of the containers", "why_tests_cant": "All strings and all terms, in particular those that look like the punctuation of the output.", "anchors": ["src/blankid.rs: Debug for BlankId, BlankIdBuf", "src/term/mod.rs: derive(Debug) of Term", "src/term/ref.rs: derive(Debug) of TermRef", "src/term/local/mod.rs: derive(Debug) of LocalTerm", "src/term/local/ref.rs: derive(Debug) of LocalTermRef", "src/literal/mod.rs: derive(Debug) of Literal", "src/literal/ref.rs: derive(Debug) of LiteralRef", "src/literal/type/mod.rs: derive(Debug) of LiteralType", "src/id/ref.rs: derive(Debug) of IdRef"]}
{"id": "C97", "title": "UUID generators", "statement": "Every term of a UUID generator is an IRI of the form urn:uuid: with groups of 8, 4, 4, 4 and 12 hexadecimal digits in lower case, which the RDF display does not escape; its digits are those of the UUID that the version of the generator makes, and making it does not panic. Two terms are the same exactly if their UUIDs are, so that the terms of version 4 are distinct exactly if the UUIDs drawn are. With versions 3 and 5 every call gives one and the same term, though a generator is to give fresh terms, and an interpretation with such a generator gives one and the same new resource each time.", "quantifier": "all UUIDs, all functions and random sources of the crate uuid, any number of calls", "why_tests_cant": "All UUIDs and all numbers of calls; the tests of the crate only ask whether the IRIs are valid.", "anchors": ["src/term/generator/uuid.rs: Uuid, next_uuid, next", "src/term/generator/mod.rs: Generator", "src/interpretation/impl/with_generator.rs: new_resource"]}
{"id": "C98", "title": "Debug output of patterns", "statement": "{:?} gives a canonical pattern as one word for each position, each around the term given there and the words of the positions after it, and {:#?} gives the words and terms lines of their own. Patterns with the same output, in either format, are equal if the end of the texts of the terms and variables can be told; this holds of canonical patterns and of patterns as written, with terms and variables. So if there are two terms, canonical patterns have the same output exactly if they match the same statements, and the canonical forms of two patterns have the same output exactly if the patterns have the same instances.", "quantifier": "all canonical quad and triple patterns, all patterns with variables, all texts of terms and variables whose end can be told, both formats", "why_tests_cant": "All terms with all texts, in every form of a pattern; the repository has no test of this output.", "anchors": ["src/pattern/quad/canonical.rs: derive(Debug) of CanonicalQuadPattern and its parts", "src/pattern/triple/canonical.rs: derive(Debug) of CanonicalTriplePattern and its parts", "src/pattern/resource_or_variable.rs: derive(Debug) of ResourceOrVar"]}
{"id": "C99", "title": "The order of canonical patterns", "statement": "The derived order of canonical patterns is that of the first position, of subject, predicate, object and graph, at which two patterns differ. A position left open comes first, then one that repeats the subject, the predicate or the object, and last one at which a term is given, in the order of terms and after the default graph; the parts taken from a pattern are in the same order. It is a total order if that of the terms is. So if there are two terms, canonical patterns compare equal exactly if they match the same statements, the canonical forms of two patterns exactly if the patterns have the same instances, and a pattern that matches every statement comes before all others.", "quantifier": "all canonical quad and triple patterns and the parts taken from them, all patterns with variables, all ordered types of terms", "why_tests_cant": "All pairs and triples of patterns of every form over all terms; the order comes from the order of variants in 29 enums and the repository has no test of it.", "anchors": ["src/pattern/quad/canonical.rs: derive(PartialOrd, Ord) of CanonicalQuadPattern and its parts", "src/pattern/triple/canonical.rs: derive(PartialOrd, Ord) of CanonicalTriplePattern and its parts"]}
{"id": "C100", "title": "Hashes of patterns", "statement": "What a pattern writes to a hasher tells it from every other pattern, whatever is written after it, if this holds of terms and variables: of canonical patterns, the parts taken from them, and patterns as written. So if there are two terms, canonical patterns write the same exactly if they match the same statements, and the canonical forms of two patterns exactly if the patterns have the same instances. A canonical quad pattern whose terms are exchanged for terms that write the same, such as references to them, writes the same.", "quantifier": "all canonical quad and triple patterns, the parts taken from them, all patterns with variables, all ways in which terms and variables are written that can be told apart", "why_tests_cant": "All pairs of patterns of every form over all terms, and all that may follow them; a hasher shows only a digest, in which a lost field looks like a collision.", "anchors": ["src/pattern/quad/canonical.rs: derive(Hash) of CanonicalQuadPattern and its parts", "src/pattern/triple/canonical.rs: derive(Hash) of CanonicalTriplePattern and its parts", "src/pattern/resource_or_variable.rs: derive(Hash) of ResourceOrVar"]}
