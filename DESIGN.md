# Design of the formal model of libwordring

Written before the proofs; sections "Results" and "Findings" are kept current as the model grows.

## Layout

* `lean/Verif/Model/*`  – executable model of the C++ code, function by function. Every definition cites file and lines in `/repo`.
* `lean/Verif/Spec/*`   – small specifications that do not use any model helper.
* `lean/Verif/Proof/*`  – helper lemmas.
* `lean/Verif/Props/*`  – property theorems (one file per group), each with non-vacuity `example`s and `#print axioms`.

Conventions
* C++ iterators over a string become the remaining `List`; containers addressed by index become `Array`/`List` plus `Nat`/`Int` indexes.
* Undefined behaviour (dereferencing end, reading an indeterminate value, out-of-range index, writing through an empty
  optional) is a distinct outcome (`none` / `.ub`), never a default value, wherever the property depends on it.
* Loops without an obvious measure take fuel; a separate theorem shows that a given fuel is enough, or that no fuel is.
* `assert` is treated as a precondition: the outcome is `ub` when it fails and the property talks about it.

## Trusted base

* The Lean 4.33 kernel, and the Mathlib modules imported one at a time. Axioms: at most `propext`, `Classical.choice`,
  `Quot.sound`. No own axioms, no `native_decide`/`bv_decide`.
* The reading of the C++ code: the model is tied to `/repo` only by the citations.
* Machine integers: modelled as unbounded `Nat`/`Int` unless the property is about overflow. `std::vector` growth never
  fails (no `bad_alloc`); the `int32_t` index range of tries and trees is assumed not to be exceeded.
* The legacy encoding index tables (tens of thousands of rows) are transcribed into the model by a script that reads the
  C++ initialisers, packed into hexadecimal rows; nothing is assumed about them, the needed facts are proved over the
  whole tables by kernel evaluation.
* IDNA `domain_to_ascii` (ICU / platform) is a parameter of the URL model. C47 and C49 assume that it never returns an empty domain
  without an error (ICU reports `UIDNA_ERROR_EMPTY_LABEL`, host.cpp:19-38). C113 assumes `Settled`: results are ASCII and not empty,
  and results and IPv4 addresses in dotted decimal are left unchanged.
* The tree construction stage is a parameter of the tokenizer model: any function of the tokens, which may change the state of the
  tokenizer only when it has got a start tag (tree_construction_dispatcher.hpp:1471, 1482, 1910, 2547, 2907). The look up of named
  character references is a parameter as well (the look up of the library, on its tables, is modelled for C100); its tables and the
  standard's names are transcribed by a script, from atom_tbl.cpp and from the generator's copy of the list of the standard. Parse
  errors are not modelled.
* Tree construction: the look up of public identifiers in `quirks_mode_tbl` is a parameter; scripting is off, the parser is not a
  fragments parser; declarations of the character encoding, parse errors and flags of scripts are left out. That the tree container
  behaves as an ordered forest is C10.
* Selectors: names, namespaces and values of nodes are the strings that `encoding_cast` makes of them; two atoms are compared as
  strings. The scope elements of `match_selector` are not used by the callers and not modelled.
* Not modelled: iterator categories/`operator->` plumbing, streams' error bits, exceptions other than as an outcome,
  floating point conversion of CSS numbers, thread safety.

## Plan per property

| Id | Model | Proof idea |
|----|-------|------------|
| C01 | `trie_heap` (BASE/CHECK array with negative-linked ascending free list) and `trie_base` functions literally | representation invariant `Inv`, abstraction to a finite set of keys, one refinement lemma per operation, induction over histories |
| C02 | same, with values in BASE | false of the code (erase drops the parent's value): negation by witness, partial theorem |
| C03 | same; every array access in the model is checked and yields `none` when outside | `Inv` implies no `none`, by the same induction |
| C04 | `search`/`lookup` | from the refinement |
| C05 | `assign` + construction iterator | witness for the empty string; partial for lists without it |
| C06 | byte serialization of the node array | round trip by C22; negation for following data |
| C07 | `stable_trie_base` | as C01 with a map |
| C08 | same | negation with a concrete history |
| C09 | `basic_trie` label splitting over C01 | injectivity of fixed-width big-endian splitting |
| C10, C11 | `tree` node array with links and free list | invariant relating the array to an ordered forest; per-operation refinement |
| C12, C13, C16 | `tree::move`, subtree copy, `--` | negations by witness; partial theorems |
| C14, C15 | stack / queue iterators over an abstract rose tree and over the array | induction on forests |
| C17, C18, C19 | `tag_tree` array, circular list | the serial sequence is the Dyck word of a forest; `move` adjacent case is a negation |
| C20, C21 | fixed-size storage array plus size | storage prefix equals the list; `at` negation |
| C22 | byte loops | arithmetic induction |
| C23 | matcher state machine | invariant relating entries to the fed prefix |
| C24–C26 | code point codecs | bit arithmetic, list induction |
| C27–C32 | Infra string functions | list induction, negations for trailing CR / all whitespace |
| C33–C37 | coders as `step` functions, `io_queue`, `process_queue`, `text_decoder` | state invariants; negations for replacement mode and UTF-16 error recovery |
| C38–C40 | legacy coders over the literal index tables | pointer arithmetic with `omega`, whole-table checks; negations for Big5, ISO-2022-JP, gb18030 |
| C41 | label table literally | `decide` over the finite table lifted by lemmas about strip and case |
| C42–C45 | percent coding, IPv4, IPv6 | digits lemmas, negations by witness |
| C46–C49 | URL state machine with host parsing as parameter | measure argument, invariants by induction over steps |
| C50–C52 | CSS preprocessing and tokenizer | list induction; negation (non-termination) for `..5` |
| C53 | HTML input stream | list induction |
| C78, C79 | tokenizer against the serializers of CSSOM, written as a small spec | one step per code point; the shapes of the first code points decide the dispatch |
| C80 | `consume_number` with the parts of `convert_string_to_number`; value in ℚ | grammar of numbers as an inductive spec; the greedy parts are the longest match |
| C81 | the whole tokenizer | CSS Syntax as a relation ("proper" tokens, delimiters otherwise); completeness per token, exceptions as an explicit inductive `Quirk` |
| C82 | `consume_component_value`, `consume_simple_block`, `consume_function` over a `token_stream` | the standard as mutual inductive relations with a parameter for the closing rule; determinism, totality, refinement by strong induction on what is left |
| C83 | the same | trees and their tokens; the parse of the tokens of a tree is the tree |
| C84-C86 | `parse_declaration`, `parse_list_of_declarations`, `parse_rule`, `parse_component_value` | relations with the number of blocks left open; undefined results as explicit predicates (`Faulty`, `Stuck`) with equivalences |
| C87 | `parse_comma_separated_list_of_component_values` | `List.intercalate` |
| C88, C89 | `consume_list_of_rules` | relations for rules; `Matched` inputs (brackets nest) give the standard |
| C90 - C92 | `basic_html_atom` and its tables | tables as lists; binary search found correct over sorted tables (checked by the kernel over the whole tables) |
| C93 - C95 | HTML `to_string` over `simple_node` trees | the loop with its two stacks as a function over node pointers; induction over forests to the recursive text of the standard; prefix-code argument for injectivity |
| C96, C97 | the tokenizer of eighty states with its input stream; tree construction stage and look up of names as parameters | an invariant and a measure for single steps, induction for the nested calls; the standard as a table with an interpreter, one simulation lemma per state |
| C98, C99 | serializer and tokenizer together | runs of the standard's tokenizer over what the standard's serializer writes, by induction over strings and trees; joined with C93 and C97 |
| C100 | the table of 33148 nodes and the map as they are, `match_named_character_reference` with the trie iterator | a certificate for every node (a name that goes through it, its depth), checked by the kernel; walks spell beginnings of names, every node is reached; the loop keeps the longest name |
| C101 | the tokenizer of C96 with the look up of C100 instead of a parameter | the invariants of C96 and C97 also carry the text behind the last ampersand: the buffer of 33 characters is the beginning of it, so the look up is one of those of C100; C98 and C99 look up five names with semicolon only |
| C102 | parser of selectors on component values, with the tokenizer and the component values of C78–C82 for texts | the grammar of the standard as inductive relations; completeness by induction over derivations with what may follow each part, soundness by following the parser |
| C103 | matching on the tree container of C10 | the meaning of selectors on ordered forests; each combinator's loop walks parents or siblings of the represented forest |
| C104 | `scope_match`, `match_selector` with the depth-first iterator | nearest document or `html` element; the visited list is the subtree (C14), the scope test cuts out the descendants |
| C105 | the whole tree construction dispatcher (`HtmlTreeBase`, `HtmlTreeModes`, `HtmlTree`): stack of open elements, list of formatting elements, all 23 insertion modes, foster parenting, adoption agency, foreign content, behind the tokenizer of C96; nodes in a store with parents and children; `back()` of an empty vector, failed asserts, erased iterators and null pointers are failures | false of the code (`<p><button>`, `<svg><p>` twice, a bookmark of the adoption agency algorithm): negation by witness texts; partial: token sequences without the tags that lead there, by an invariant that ties the insertion mode to the stack |
| C106 | `process` with a bound on the number of times a token is reprocessed | the bound is never reached: measure from the length of the stack, the number of templates and a rank of mode and token |
| C107 | as C105 | document shape (`html` with `head`, then `body` or `frameset`) as part of the invariant of C105, for the same class (each mode knows which elements the root has; `Kept`: all other steps leave the elements in the root alone); negation by witness texts outside of it, and for `parse`, which never announces the end of the text |
| C108 | as C105, with the serializer of C93 and the tokenizer of C96 | parsing the serialization of a document gives the document back, for a class of trees given by a grammar without optional tags; induction over forests with a frame property (inserting changes nothing but the children of the current node) |
| C109 | attributes and names of foreign elements | witnesses (prefix left over in a token, `viewbox`, `foreignobject`); an invariant of the whole tree construction for the texts without `svg` and `math`; the conversion table of SVG names never has an effect, over the whole table |
| C110 | as C105 | well-formed stores of nodes (children and parents agree, no cycles by a rank, only elements and the document have children), kept by linking, moving and the changes of values; an invariant of all modes with the root element at the bottom of the stack |
| C111 | the loop of `extract_character_encoding_from_meta_element` on suffixes, the attributes of the `meta` case | the first `charset =` as a minimal decomposition of the text; the loop skips nothing because no `c` is in what it passes over |
| C112 | `parse` for bytes: decoder of C36, tokenizer and tree construction of C105, restart; the `meta` elements are read off the document instead of the token | induction over the prefixes of the text; the confidence is certain behind the first restart |
| C113 | the URL model of C46, `serialize_url` | the parser is followed through each part of the text as a configuration with the rest of the input; hosts by C74, C75 and C45; an invariant of all steps and setters for domains and ports |
| C114–C117 | the URL model of C46, the setters of `basic_url` | C114: an invariant of the steps that start in the state of one part. C115–C117: the parser is followed to its end over an arbitrary text, as for C113 |
| C118–C120 | the URL model, the getters of `basic_url` | C118: the parser is followed through the host and port states over an arbitrary text. C119: the getters and `serialize_url` written out on a valid record. C120: the text a getter gives is read again by C115–C118, with the facts about stored parts from C113 |
| C121–C123 | `basic_atom`, `basic_atom_set` (atom.hpp) on top of the stable trie of C07–C09 | the representation invariant of the stable trie for every history; the number of an atom is the index of the node behind the empty transition, its string comes from C63. C123 lifts C08 and looks at the nodes of strings too |
| C124–C126 | the decoders of all encodings, `text_decoder`, `decode(in, name, out)` | the chunk theorem C36 with two more invariants: what one step may emit (whole tables by `decide +kernel`), and that the bytes a decoder keeps, followed by what is left, are a suffix of the input, so a failed assertion shows in the input; `process_queue` compared with the loop of `text_decoder` |
| C127–C129 | `basic_url(url, base)`: references and bases | the reference is cut into path, query and fragment by a spec that knows no states; the parser is followed through its states as for C113 and C115 (C127); two runs of the parser from the same state on inputs with the same end are compared step by step, whatever base they have (C128, C129) |
| C130 | as C105, all texts | an invariant over the walk of C109/C110 (`Closed`): every element in the tree, on the stack and in the list of active formatting elements has a name and attributes out of a given source; the source is then the record of the tokens |
| C131 | the decoders of Shift_JIS, EUC-KR, EUC-JP, Big5 over all byte sequences | `Spec.Multibyte.reads`: a reading from the left by a table of singles, pairs and triples that knows no decoder states; the state machines follow it step by step (`Follows`), the pointers are compared with cells of rows and columns; negation for Big5 |
| C132 | the decoder of gb18030 and GBK over all byte sequences | as C131 with `Spec.Gb18030.gbReads`; the ranges are compared with "the last entry not behind the pointer" of the standard; a run that fails is kept apart and shown to fail at the first code point above U+10000, which gives C124 exactly |
| C68–C70 | single-byte coders, ISO-2022-JP, EUC-KR | whole-table checks that the two tables invert each other; run of the state machines |
| C71 | text_decoder of UTF-8 over the chunk theorem C36 | decoder report of C33 with the byte order mark handling of serialize |
| C72 | percent encoding with errors | runs of the stateless encoders cut at each error |
| C73–C76 | host parsers with `domain_to_ascii` as parameter | grammar of the standard as an inductive spec; soundness and completeness by induction over the loop |
| C77 | undefined outcomes of the URL model | the buffer is a slice of the input while a host is read; classification of all undefined outcomes |
| C67 | character iterators over the tag tree | lists of tags, one text at a time |

## Findings (places where the code disagrees with the property)

Collected while reading; each becomes a proven negation or is noted in the manifest.

* `tree::move` accepts an `end()` position below the moved node (cycle); copy-insert pops one parent only; `--end()` at root level.
* `tag_tree::move` to the position just behind the moved node drops the subtree.
* `trie_base::erase` loses the value of the parent key when the last proper child goes; `assign` counts the empty string;
  `operator>>` treats the byte count as a node count.
* stable trie terminator indexes do move on relocation.
* `static_vector::at` checks against the capacity.
* `normalize_newlines` drops a trailing CR; `strip_leading_and_trailing_ascii_whitespace` runs past the end on all-whitespace input.
* U+FFFD is never emitted in replacement mode; the UTF-16 decoder restores a wrong byte; Big5 trail bytes A1–FE are rejected;
  the ISO-2022-JP encoder loops on unmappable code points; gb18030 rejects supplementary code points above U+10000;
  label of ISO-8859-15 is wrong.
* `utf8_decode` compares the byte order mark with `char` literals: it is removed from queues of (signed) `char` only. The
  UTF-8 encoder encodes surrogates. Text behind an unpaired UTF-16 lead surrogate loses one code unit's high byte.
* IPv4 octal digit 8, IPv4 overflow; IPv6 embedded IPv4 and compression; port 65535; file host setter.
* CSS tokenizer loops on `..5`, reads past the end on `#` and `url`.
* `static_vector` insertion of one of its own elements at or behind the insertion point inserts the shifted value;
  the iterator assertion in `operator+=` rejects `end()` of a full vector.
* HTML `fill(n)` compares with `==`, so a buffer with more than `n` code points counts as too short.
* CSS `@charset "utf-16"` is not replaced by UTF-8.
* `is_scalar_value` accepts numbers above U+10FFFF.
* `trie_base::operator[]("")` overwrites the size counter of the trie.
* Wide-label `assign` merges into the old contents; `operator[]` of wide-label iterators reads behind the node array.
* The bulk `assign` of `"", "a", "b"` has size 3; erasing `a` and `b` then leaves a root with a stale base, and the next
  `insert` reads an invalid node.
* `trie_heap::assign` from 16-bit units shifts by 8 instead of 16.
* `tree::insert(pos, sub)` with `pos` inside `sub` never ends, because the copies are copied again; `tree::back()` returns
  the first root; `operator--` asserts that the node has a parent, so it aborts on every root.
* `tag_tree::move(sub, sub)` and `move` to just behind `sub` lose the subtree (its tags also never become free again);
  `insert(x.end(), v)` with `x` a node without end tag (text, comment) appends to the whole forest; `parent()` of a root is
  an iterator without container.
* Character iterators stop at empty text nodes and yield U+0000 there; `--` into an empty text node sets the offset to
  0xFFFFFFFF.

* Legacy encodings: the Big5 pointer table has the first of two pointers for U+2550, U+255E, U+2561, U+256A, U+5341 and U+5345,
  the standard wants the last; the Shift_JIS tables equal those of JIS X 0208, so pointers 8272–8835 are not left out; the last
  entry of the gb18030 ranges is truncated to 57928 (from 189000), so U+10000 becomes 85 35 FB 38, which the decoder rejects, and
  gb18030 four-byte sequences behind pointer 189000 fail an assertion in the decoder; the ISO-2022-JP encoder tests `!=` where
  the standard tests `==` in step 11, and puts a second end-of-queue back at the end.
* `get_encoding_label(ISO_8859_15)` returns "iso-8859-14", so the round trip gives ISO-8859-14 (C41). A label of whitespace only runs past the end of the string (C28).
* The label table lacks the nine labels the Encoding Standard has gained since (among them "unicode", "ucs-2" and "unicode11utf8"); it agrees with the earlier edition label by label (`C41_standard`).
* `percent_encode_after_encoding` passes the encoder to `encode_or_fail` by value, so ISO-2022-JP starts in ASCII again behind an
  unencodable character although the bytes written are still in the two-byte set (`C72_iso_2022_jp_state`).

* `parse_ipv4_number` accepts 8 as an octal digit, so "08" reads an uninitialised variable and "018" is 1; a number over 32 bits
  reads it as well; "0x" alone is rejected though the standard gives 0 (C44). `parse_ipv6` dereferences an empty optional for every
  address with an embedded IPv4 address (`C74_embedded`) and reports nine pieces as a failure without an error code
  (`C74_silent_failure`). `serialize_ipv6` adds up lengths of separate runs of zeros, so 0:1:0:1:0:1:1:1 is written as
  0:1:0::1:1:1, a different address (`C45_lost`). `is_valid_ipv4_address_string("a.b.c.d")` reads an uninitialised variable (C76).
* `host_base::operator bool` is inverted and comparing failure hosts asserts (host.hpp 107, 138-151, 371-386; by reading).
* URL parser: the query is encoded for ever when the output encoding is ISO-2022-JP and a character is missing there
  (`C46_diverges`); port 65535 and ports with leading zeros beyond five digits are rejected (C48; url.cpp:870 tests `>=`);
  `cannot_have_username_or_password_or_port` compares the host with a string, which asserts for addresses, so the username, password
  and port setters of `http://1.2.3.4/` are undefined; so is parsing `file://1.2.3.4/` (url.cpp:1020) (C77). A default constructed
  `basic_url` has an empty scheme and is outside the invariants of C47 and C49.
* CSS tokenizer: `consume_token` looks for a number behind a sign or full stop instead of at it, so "..5" and ".+5" are never left
  (a token 0 without progress, C51) and "++5", "+-5", "--5" begin with the number 0 (C81). `--` and `--1` are not identifiers (C78).
  A last `#` and a last `url` read at the end iterator. Behind `url(` a quoted string leaves the parenthesis in the input (the function token
  comes first, then "("), and every escape in an unquoted url makes a bad url or repeats the text behind the reverse solidus. A
  reverse solidus at the end is a delimiter rather than an escape. Digits of 2^32 and more fail an assertion (C80).
* **CSS parser, mismatched brackets (C82, C88).** `consume_simple_block` falls through from a closing token of another kind to the end of the
  input (parsing.hpp:1241-1250), so any closing token ends a block: `(a]b)` is a block `(a)`, `b` and a stray `)`.
* **CSS parser, declarations (C84, C85).** `process_important` counts down with `std::size_t` and `0 <= i` (1096), so for a value that is empty or
  only `important` (`a:`, `a: important`) it reads in front of the vector. `parse_declaration` without an identifier in front returns an empty
  declaration with a name of length 0, where the standard returns a syntax error.
* **CSS parser, input that ends early (C84-C86).** After a block or function still open at the end `m_i` is past the last element and the next
  `next_input_token` fails its assertion: `parse_component_value("(")`, `parse_rule("a{")`, `parse_rule("@a")`, `parse_declaration("a:(")`,
  `parse_list_of_declarations("a:(")`. `parse_stylesheet` and the lists of rules and component values only `consume` and are not affected.
* **CSS parser, `<!--` and `-->` (C89).** `parse_list_of_rules` passes `true` for the top-level flag. With `false`, `consume_list_of_rules` falls
  through from the qualified rule to `consume_at_rule` (851-864), which always fails its assertion.
* By reading: `at_rule::operator=` dereferences `m_block` without a check (token.hpp, `at_rule`), so assigning an at-rule without a block is undefined.
* **HTML serializer, children of void elements (C93).** `to_string` puts the children of every element on its stack, so the children of
  `<br>` and the like are written after the start tag (without an end tag). The standard goes on to the next sibling. Witness
  `C93_statement_false`.
* **HTML serializer, text below a document or fragment (C93).** For a text the parent's namespace is asked for
  (serializing.hpp:231-234) before it is known to be an element; `simple_node` asserts. With `NDEBUG` the text is escaped as it should be.
  Witness `C93_fragment_text`.
* **HTML serializer, prefixes of attributes (C93).** An attribute in a namespace that has no enumerator is taken for one without namespace
  (the enumerator is 0 for both) and loses its prefix. Witness `C93_prefix_lost`.
* **HTML serializer, edition.** The current standard also escapes `<` and `>` in attribute values; the code follows the edition before. The
  specification is that edition. Template contents, `is` values and scripting are not in the code and not in the model.
* **`simple_element` (not modelled).** `operator==` of elements compares the attributes by name only, neither names nor values;
  `operator==` of texts, comments and documents fails an assertion.
* HTML tokenizer, `numeric_character_reference_end_state` (tokenization.hpp:2753-2791) neither consumes nor continues: each numeric
  character reference leaves the tokenizer one character behind, and at the end of the file that many characters and the end-of-file
  token are never delivered (C97_numeric, C97_numeric2).
* HTML tokenizer: the code of a numeric reference wraps modulo 2^32, `&#4294967361;` is `A` instead of U+FFFD (C97_wrap).
* HTML tokenizer, script data double escape start state: a name other than `script` leads to the before attribute name state instead
  of script data escaped. `<!--<b>` in a script makes the tokenizer read on within the start tag of the script, emit it again with
  made-up attributes, and miss `</script>` (C97_script).
* HTML tokenizer, comment state: NUL emits a U+FFFD character token instead of appending to the comment (C97_comment).
* HTML tokenizer, markup declaration open state: the namespace condition of CDATA sections is inverted (C97_cdata_html,
  C97_cdata_foreign).
* HTML input stream: `push_eof` behind a carriage return calls the state function once for the line feed and once for the end; if a
  state that waited for more input flushes in the first call, the end-of-file token is emitted twice (C97_return).
* HTML input stream: `fill` compares with `==`, so a state that waits with more characters in the buffer than it asks for waits for
  the end of the file. Tokens are delayed, not lost (C97_partial).
* HTML tokenizer: missing and empty identifiers of a DOCTYPE are not told apart (the comparison in C97 maps missing to empty);
  duplicate attributes, attributes of end tags and self-closing end tags are never reported as parse errors (errors are not modelled).
* C100: `const_trie_iterator::operator[]` (trie_iterator.hpp:141-175) reads `m_check` at `base + byte` without looking at the
  size of the table. The last nodes of `named_character_reference_idx_tbl` have bases near the end, so after "&zwnj" any
  character from "<" on, after "&zwj" any from "G" on, and so on, is looked up behind the end of the vector (`C100_behind`,
  `C100_tokenize`: "&zwnj<b>" is undefined behaviour). Only names with z or Z are concerned.
* C101: escaping does away with the finding of C100: what `to_string` and `escape_string` write never makes the look up leave its
  table, even if the text contains "&zwnj<" (`C101_text`, `C101_tree`).
* C102: `selector_list` ignores whatever is left of the input (parsing.hpp:190-202), so that `p)`, `p >` and `p|b` with an undeclared
  prefix are taken as `p` (`C102_leftover`); there is no error for an invalid selector, only an empty list. White space in front of
  a selector makes it fail (`C102_statement_false`). `*||b` fails because `*|` is taken as a prefix (`C102_departures`). `#1a` is an
  id selector although the hash token is not an identifier, and anything may follow the value in `[a=b c]`. An identifier written
  `\*` is taken as the prefix `*`.
* C103: outside quirks mode `class_selector::match` (grammar.hpp:374-376) compares each class with the whole attribute value instead of
  the name in the selector: `.foo` matches `class="bar"` and does not match `class="foo bar"` (`C103_class`).
* C103: `type_selector::match` (grammar.hpp:964-966) dereferences the optional of `*` without a prefix, which is empty:
  undefined behaviour on every element (`C103_star`, `C104_star`).
* C103: `[a|=v]` needs `v-` and does not match the value `v`; `[a^=""]`, `[a$=""]`, `[a*=""]` match every value
  (`C103_departures`). `[*|a=v]` looks at the first attribute `a` only. In quirks mode the id of the element is lowercased, the one in
  the selector is not. `:root` is any HTML element `html` and the only pseudo-class; pseudo-elements and `||` never match.
* C104: `scope_match` (dom/infrastructure.hpp:82-96) searches the root upwards for an HTML element `html`; for a node without one (any
  element of an XML document, a detached element) it goes on with a null iterator: undefined behaviour (`C104_lost`,
  `C104_statement_false`). `query_selector` takes `front()` of an empty vector if nothing matches (css/selector.hpp:85-92).
* C105: the start tag `button` (tree_construction_dispatcher.hpp:2556-2560) looks for a `p` in scope instead of a `button`, and then pops
  until a `button`: `<p><button>` empties the stack, and the next `back()` is undefined (`C105_button`).
* C105, C107: to leave foreign content, 4862-4868 pops once and then again before it looks (`do`-`while` behind a pop), so that one
  element too many is popped: `<svg><p>` puts the `p` below `html`, behind `body` (`C107_breakout`); `<svg><p></p><svg><p>` empties the
  stack (`C105_breakout`), `<table><tr><svg><p></tbody>` fails an assertion (`C105_table`).
* C105: in the adoption agency algorithm the bookmark (3139) may be the iterator of an entry that is erased later on (3238-3240), behind
  which is then inserted: `<a><b><span><span><span><div></a>` (`C105_adoption`).
* C105: `push_eof` (input_stream.hpp:140-153) calls the state function again if a carriage return came last, even if that line feed has
  already taken the tokenizer to the end: the token of the end is emitted twice, and the second one finds the stack of open elements
  empty, as for `<!` and a carriage return (`C105_twice`).
* C105: apart from `button`, foreign content and the adoption agency algorithm nothing can go wrong: `C105_partial` and
  `C105_eof_partial` are for all texts that have no start tag `button`, `svg`, `math` or `template`. They are stated with the
  tokens that reach the tree construction while the text is parsed (`Spec/HtmlWatch`), since what is a tag depends on both.
* C107: for the texts that C105 is proved for, the shape is right once the end is announced (`C107_partial`). `noframes` elements behind a
  frameset are children of `html`; that is what the standard says, too ("after frameset" uses the rules for "in head").
* C107: `parse` (simple_parser.hpp:264-310) does not call `push_eof`: the empty text gives a document without `html`, `<table>x` loses the
  x (`C107_empty`, `C107_lost`). A character reference within the last 33 characters is lost with all that follows, as the tokenizer waits
  for 33 characters: `<p>a&lt;b</p>` gives a `p` with the text `a` (`C107_reference`).
* C109: the prefix of an adjusted attribute (`xlink:href`) is kept in the token when it is reused, and the next element's attribute has it
  (`C109_prefix`); the SVG name from the conversion table is
  put in the token's name but not in its name id (4881-4882), which elements are made from, so that `foreignObject` stays
  `foreignobject`; the `svg` element gets the adjustment for MathML instead of the one for SVG (3051), so that `viewBox` stays `viewbox`
  (`C109_name`, `C109_viewBox`). `C109_partial` is the rest: without start tags of `svg` and `math` all elements are HTML elements whose
  attributes have neither namespace nor prefix.
* C107: a template's content is put into `html` for `<template><td>x</template>` (1237-1301: without a table, but with a template, the
  foster parent is the first element of the stack) (`C107_template`); the body is missing as well.
* Further departures of the tree construction from the standard, seen while modelling: `<li><b>x<li>y` nests the second `li` (only the
  current node is looked at, 2477-2497); attributes of a second `body` are ignored, as the condition is inverted (2268), and so is the one
  of `frameset`; `</table>` in a `select` in a cell is ignored (table scope instead of select scope); formatting elements are compared by
  neither name nor values (simple_node.hpp:566-578), so that `<p><b><i><u><s></p><p>x` loses the `b`; `<font color>` does not leave foreign
  content (`Color` is compared); `a` and `nobr` start tags are dropped when the adoption agency algorithm asks for "any other end tag".
* `<meta charset=iso-2022-kr>` (or any label of `replacement`) in bytes of tentative encoding makes `parse` throw `std::range_error` (C112):
  the restart constructs a `text_decoder` with the declared name. `charset=" "` is undefined behaviour (C111, from C28).
* URLs that are not read again from their text (C113): `a:/.` is written `a:/`, which cannot be a base when read, because the parser
  wants something behind the slash (url.cpp, scheme state); the same with an empty `pathname`, and with `search` on `a:/` the other
  way round; `hash("")` on `a:b #c` leaves a space at the end that is trimmed; an IPv6 host with three runs of zeros becomes another
  address (C45); `file://%43|/x` has the host `C|`, which is a drive letter when read; `protocol("file")` on `http://1.2.3.4` gives a
  text whose reading fails an assertion (comparing an address with `localhost`, host.hpp:138-151), on `http://localhost` the host gets lost,
  and in `http://h/C|/` the drive letter changes. All http, https, ws, wss and ftp URLs but those of C45 are read again.
* The `hostname` and `host` setters of a `file` URL take the first character twice (C117): `hostname("ab")` on `file:///` gives
  `file://aab/`. `on_hostname_state` (url.cpp:789-793) sets the pointer back and changes to the file host state, but has no `else`, so
  the character is put into the buffer as well and then read again.
* `hostname("")` and `host("")` leave a `file` URL as it is instead of emptying its host (C117, C118): the missing
  `else` of the last point lets the host state refuse the empty host, as `file` is a special scheme. The host setter refuses the port 65535 as the port setter does (C48, C118).
* Setting a part of a URL to what its getter returns can change it (C120): `search` and `hash` remove a `?` or `#` without text, `hostname`
  gives `a:/b` an empty host (`a:///b`), `file://ab/` becomes `file://aab/`, and an IPv6 address with three runs of zeros becomes another one
  (C45). In every other case nothing changes.

* Atoms (C121–C123): `basic_atom_set::at(id)` is documented to give the empty atom for an unknown id, but fails an assertion (or, without
  assertions, makes an atom of whatever is in the array); `at(0)`, the id of the empty atom, is always such a call. Ids are not stable:
  with `a` and `b` stored, inserting `ab` changes the id of `a` from 257 to 259. Atoms are not stable either: with `aa` and `bb` stored,
  inserting `ab` moves the node of `aa`, and the atom obtained before refers to a free node. `assign` adds to the set instead of replacing it (as in C62).
* Selectors: the exact behaviour of `[a|=v]` is now part of C103 for all documents in which no attribute of that name has the value `v` itself.
- C131: the branches of `Big5_decoder::run` for the pointers 1164 and 1166 (coder.hpp) are unreachable, because their trail bytes A3 and A5 are rejected; U+00EA U+0304 and U+00EA U+030C can never be decoded. Apart from trail bytes above 7E all four decoders conform.
- C124: `ISO_2022_JP_decoder::run` asserts `!item.m_eoq` in state Escape (coder.hpp:996), so any ISO-2022-JP input cut off behind ESC `$` or ESC `(` is undefined, without `fatal` exactly those. `get_index_gb18030_ranges_code_point` asserts when `lower_bound` reaches the end of the map, so every gb18030 or GBK sequence for a code point above U+10000 (a common emoji) is undefined on decoding too, not only on encoding (C40). All other decoders never fail.
- C126: in the encoding `replacement` `decode` gives no text at all, where the standard gives one U+FFFD (as for every error, C35).

## Results

One row per property with a machine-checked result; the theorem names are in MANIFEST.json.

| Property | Title | Status | Note |
|---|---|---|---|
| C01 | Byte-string trie behaves as a set of keys | proved |  |
| C02 | Values stored in the byte-string trie survive operations on other keys | partial | False: erasing the only proper extension of a stored key resets that key's value to 0; exact behaviour proved for all histories, the property for histories without such an erase. |
| C03 | Every trie index access stays inside the node array | proved | insert, erase, value writes, all queries and iterators. |
| C04 | lookup finds the longest stored prefix path and search the exact path | proved |  |
| C05 | Bulk assignment equals one-by-one insertion | partial | False for sorted lists with the empty string, which is counted (and leads to undefined behaviour later); proved for all other lists. |
| C06 | Trie save and load is a round trip | partial | False when anything follows in the stream: the byte count is taken for a node count; exact behaviour proved, and the round trip (with all later behaviour) for a trie at the end of the stream. |
| C07 | Stable trie behaves as a map and erasing keeps other values | proved |  |
| C08 | Terminator index of a stable trie key never changes while the key is stored | partial | False: inserting "a", "b", "ab" moves the terminator of "a"; proved for all operations that do not insert an extension of the key. |
| C09 | Wide-label trie is a set of label strings | proved | C09_values states the value rule of C02 (exact behaviour, including the reset on erase). |
| C10 | Tree container behaves as an ordered forest | proved | insert, erase, clear and (acyclic) move in the history; begin/end/++/*/parent/size/empty observed at every level. |
| C100 | Named character references are looked up as in the HTML standard | partial | False: behind zwnj, zwj, zscr, Zscr and other beginnings of names with z the trie iterator reads behind the end of its table, e.g. for &zwnj<. Proved: whatever is found is the standard's longest name with its code points, for all texts; the look up is defined for all texts that do not begin with z or Z, and for all names that end in a semicolon. |
| C101 | Tokenizing HTML with the library's own table of character references | partial | False: see C100. Proved: defined for all texts in which no ampersand is followed by z or Z, except for whole names with semicolon; the standard's tokens if the references that are looked up are so and nothing that C97 is about is met; all escaped texts and plain trees are read back, without a parameter for the table. |
| C102 | Selectors are parsed as the Selectors standard says | partial | False: white space in front makes parsing fail, so does *\|\|; what is left behind a selector is ignored, so that p) and p > and p\|b without a declaration are taken as p; #1a and [a=b c] are taken. Proved: every selector of the standard without these is parsed to what it says, for all lists; whatever is parsed is a selector of a slightly larger language at the beginning of the text; from texts through the tokenizer. |
| C103 | Selectors match the elements they represent | partial | False: outside quirks mode .foo matches every element whose class attribute is one word; * without prefix dereferences an empty optional; [a\|=v] does not match v itself; [a^=''] matches. Proved: for all trees, nodes and selectors without these matching is defined and right, in all modes. |
| C104 | Queries find exactly the matching descendants, in document order | partial | False: a query on a node that is not a document and is not in an HTML html element (as in XML documents) is undefined, query_selector is undefined if nothing is found, and C103. Proved: for all trees and nodes otherwise the result is the matching descendants in document order, each once; with clean selectors those that the standard names, from the text of the selector on. |
| C105 | Parsing HTML never runs into undefined behaviour | partial | Proved for all texts without the start tags button, svg, math and template: nothing but the adoption agency algorithm can fail, and without formatting elements (a, b, i, ...) nothing can. Missing: template. Otherwise false: a button in a p empties the stack of open elements; leaving foreign content pops one element too many, so that the stack is emptied or not as the insertion mode expects; the adoption agency algorithm inserts at the iterator of an erased entry; a text that ends with a carriage return may announce its end twice, which empties the stack. |
| C106 | Parsing HTML always ends | proved | From texts: relative to a look up of character references that is defined (parameter). |
| C107 | A parsed document has the shape of an HTML document | partial | False: parse never announces the end of the text, so that the empty text gives an empty document and characters in a table are lost; a paragraph that leaves foreign content and a cell in a template are put below html. Proved for all texts whose end reaches the tree construction and that have no start tag of button, svg, math or template; noframes elements behind a frameset stay in html, as in the standard. |
| C108 | Documents survive writing and reading | proved | With the library's own table of character references. The class leaves out elements with raw text, foreign elements, templates, select, textarea, button and pre; the end of the text is announced (push_eof), see C107. |
| C109 | Foreign elements and attributes get their proper names | partial | False: the prefix of an adjusted attribute stays in the token and turns up at the next element; foreignObject, viewBox and others do not get their capital letters. Proved for all texts without start tags of svg and math. |
| C11 | Tree slots are neither leaked nor handed out twice | proved | Also: the storage is exactly one longer than the largest number of nodes since the last clear(). |
| C110 | Every parsed text is a document | proved | An invariant of the whole tree construction. That nothing of the tree is left out of the view on it is part of the theorem. Whether parsing gives a result is C105. |
| C111 | The encoding a meta element declares | partial | False for a quoted label of white space only, where the code reads past a buffer (C28); proved for everything else, for single texts and whole elements. |
| C112 | Parsing bytes gives the document of the text in the declared encoding | partial | False: a declared encoding that the decoder refuses (iso-2022-kr and the other labels of replacement) makes parse throw. Proved: parsing ends after at most two passes, and a document is the one of the chosen encoding. The look up of character references is a parameter. |
| C113 | A URL that is written and read again is the same URL | partial | False: a:/. and eight other cases, each with a witness, among them text whose reading fails an assertion. Proved for every record that is Readable, in particular every http, https, ws, wss and ftp URL without the IPv6 hosts of C45. domain_to_ascii is a parameter that is assumed to leave its own results and dotted addresses unchanged. |
| C114 | A setter leaves the other parts of a URL alone | proved | domain_to_ascii is a parameter. |
| C115 | What the setters of a URL store | proved | The exact record behind each call; the number of iterations is bounded by some k. |
| C116 | The protocol setter | proved | For every valid record (C47); the exact record behind each call. |
| C117 | The hostname setter | partial | False of file URLs: the first character is taken twice (on_hostname_state has no else). Proved for all other URLs and every string for which the host parser is defined. |
| C118 | The host setter | partial | False of file URLs (as C117) and of the port 65535 (as C48). Proved for all other URLs and every string for which the host parser is defined, with the ports that the code takes; the exact behaviour on file URLs is proved too. |
| C119 | href is made of what the other getters give | proved | For every record that parsing and setters lead to; domain_to_ascii is a parameter. |
| C12 | Moving a subtree keeps every node and rejects cycles | partial | False for the end() position below the moved node: no exception, the subtree becomes its own child and is lost; proved for all other positions. |
| C120 | Setting a part of a URL to what it is changes nothing | partial | False: six witnesses (an empty query or fragment, a URL without host, hosts of file URLs, IPv6 addresses of C45). Proved for all nine setters for the other URLs. |
| C121 | A set of atoms numbers its strings one to one | proved | For characters of any width and every history of calls; indices are unbounded. |
| C122 | The atom of a number that no atom has | partial | False: at fails an assertion (or reads outside of the array) for every number that no stored string has, 0 among them. Proved: it is defined just for the numbers of stored strings, and right there. |
| C123 | Atoms and their numbers stay while other strings come and go | partial | False: inserting a longer string can change the number of a stored string, and inserting a string with a common beginning can move the atom of a stored string, so that the old one becomes invalid. Proved: the number stays under every other call. |
| C124 | Decoding never runs into undefined behaviour | partial | The statement is false: ISO-2022-JP bytes ending in ESC $ or ESC ( (exactly these, without fatal), and gb18030 or GBK bytes with a four-byte sequence above U+10000, fail an assertion. All other inputs end with a text or the exception. Which gb18030 and GBK bytes fail is exact, too: those that say a code point above U+10000 (with fatal: in front of the first error). |
| C125 | Decoded text consists of scalar values | proved | All encodings and chunks; the number of loop iterations is bounded by a sufficiently large number as in C36. |
| C126 | A byte order mark overrides the encoding given to decode | proved | With end-of-queue at the end of the input. For the encoding replacement the text is empty. |
| C127 | What a relative reference means beside a base URL | proved | For every valid base (C47); the encoding is UTF-8, as in basic_url. |
| C128 | An absolute text means the same beside every base | partial | The first sentence is proved for all texts and bases. The second is proved for the URLs that are read from their text (C113); of the others it is false as C113 is. |
| C129 | A reference with a host takes only the scheme of the base | proved | For every valid base that can be one; holds where the host parser is undefined, too. |
| C13 | Copy-inserting a subtree reproduces its shape | partial | False when the traversal climbs more than one level at once (wrong shape) and when the target lies in the source (endless loop); proved for all other subtrees, from the same and from another tree. |
| C130 | A parsed document has only the elements and attributes of the text | proved | For every text; the tags are those that the tokenizer hands to the tree construction. Prefixes and namespaces of attributes are C109. |
| C131 | What Shift_JIS, EUC-KR, EUC-JP and Big5 decoders make of arbitrary bytes | partial | Proved for Shift_JIS, EUC-KR and EUC-JP. False for Big5, whose decoder rejects every trail byte above 7E: proved where no two bytes above 7F meet, and what it does instead (one error for each such pair) for all bytes. |
| C132 | What the gb18030 and GBK decoder makes of arbitrary bytes | partial | False for bytes that say a code point above U+10000, on which the decoder fails an assertion: exactly those. Proved for all other bytes, in both error modes. |
| C14 | Depth-first tree iterator visits the subtree in document order | proved |  |
| C15 | Level-order tree iterator visits the subtree breadth first | proved |  |
| C16 | Decrementing an iterator undoes incrementing it | partial | False among the roots: --end() gives the first root, and the assertion rejects every root; proved below the roots. |
| C17 | Tag tree serial order is a well-nested tag sequence | proved | Also backwards, and with clear() and move() in the history. |
| C18 | Tag tree behaves as an ordered forest | proved | Positions are never inside nodes without end tag; for those, end() is the end of the whole forest (C18_single_end). |
| C19 | Moving inside a tag tree loses nothing | partial | False for the place where the subtree already is: the subtree is lost; proved for all other positions. |
| C20 | static_vector behaves as a list of bounded length | proved | Inserted values are not elements of the vector itself (see C55); an empty erase range at end() is outside the code's contract. |
| C21 | static_vector::at rejects every position outside the sequence | partial | False: at() checks the capacity, not the size. |
| C22 | Integer serialization round trip | proved |  |
| C23 | string_matcher reports exactly the first complete match | proved |  |
| C24 | UTF-8 code point round trip | proved |  |
| C25 | UTF-16 code point round trip | proved |  |
| C26 | encoding_cast between Unicode encodings is lossless | proved |  |
| C27 | Newline normalization | partial | False in general: a trailing CR is dropped and code points are copied into the output unit type without encoding; proved for inputs not ending in CR whose code points fit one unit, and the exact behaviour for all inputs. |
| C28 | Stripping leading and trailing whitespace | partial | False for non-empty all-whitespace input (undefined behaviour); proved for all others. |
| C29 | Strip and collapse whitespace | proved |  |
| C30 | Splitting on a delimiter loses nothing | partial | False for delimiters needing more than one code unit. |
| C31 | Splitting on whitespace and on commas | partial | split_on_ascii_whitespace proved; split_on_commas runs past the end on an all-whitespace piece. |
| C32 | ASCII case functions only touch ASCII letters and agree with case-insensitive match | proved |  |
| C33 | UTF-8 decoding inverts UTF-8 encoding | proved | utf8_decode additionally drops one leading U+FEFF, as the standard says. |
| C34 | UTF-8 decoder accepts exactly well-formed UTF-8 and emits only scalar values | proved | Errors are the maximal subparts of the Unicode standard. |
| C35 | Malformed input is replaced by U+FFFD | partial | False: errors leave no trace in the output, because the coder is a variant and never recognised as a decoder. Proved: everything but the errors comes out, and with the recognition repaired there is one U+FFFD per error. |
| C36 | Streaming decode does not depend on chunk boundaries | proved |  |
| C37 | UTF-16 decoding | partial | The round trip is proved. Recovery is false: the code unit behind an unpaired lead surrogate loses its high byte; exact behaviour proved. |
| C38 | Multi-byte legacy encoders and decoders are inverse | partial | False for Big5, whose decoder rejects every trail byte above 7E. Proved for whole strings, leaving out those Big5 characters, yen/overline/minus in EUC-JP and Shift_JIS (mapped to others by the standard) and U+10000 in gb18030. |
| C39 | Every encoder terminates | partial | False: a code point JIS X 0208 lacks makes the encoder write escape sequences for ever. Proved for text the encoding has (at most 11 bytes per code point). |
| C40 | gb18030 covers every code point | partial | False: U+10000 gets wrong bytes, and every later code point fails an assertion. Proved below U+10000. |
| C41 | Encoding name and label agree | partial | False for ISO-8859-15, whose label is given as iso-8859-14. Proved for the other 39 names; look-up is proved for every label except those of whitespace only, which run past the end. |
| C42 | Percent encoding round trip | proved |  |
| C43 | IPv4 addresses round trip through text | proved |  |
| C44 | IPv4 number parsing is exact | partial | False: 8 passes as an octal digit and numbers over 32 bits read an uninitialised variable. Exact for all other strings. |
| C45 | IPv6 addresses round trip through text | partial | False with three or more runs of zeros: a piece between two runs may be dropped. Proved, with the canonical text, for at most two runs; in every case at most one piece is lost. |
| C46 | URL parsing terminates | partial | False for ISO-2022-JP: a query with a character it lacks is encoded for ever. Proved for all other encodings, every base and every setter, within 48*length+149 iterations. |
| C47 | Parsed URL components are percent-encoded | proved | domain_to_ascii is assumed not to return an empty domain without an error. |
| C48 | Ports are accepted exactly in 0..65535 and default ports are dropped | partial | False: 65535 is rejected, and so are numbers of more than five digits with leading zeros. The exact behaviour of the port setter is proved. |
| C49 | Parsed special URLs always have a host and no dot segments remain | proved | domain_to_ascii is assumed not to return an empty domain without an error. |
| C50 | CSS input preprocessing | proved |  |
| C51 | CSS tokenizer makes progress | partial | False: ..5 never ends, a last # and a last url read at the end, and 4294967296 asserts. Proved with exactly these exceptions. |
| C52 | CSS escapes denote scalar values and hex escapes denote their number | proved |  |
| C53 | HTML input stream normalizes newlines independently of delivery | proved |  |
| C54 | Code point classification | partial | is_noncharacter proved; is_scalar_value has no upper bound. |
| C55 | Inserting an element of the vector itself | partial | False for elements at or behind the insertion point. |
| C56 | Iterators of a static_vector reach every position | partial | False for full vectors: the assertion rejects end(). |
| C57 | HTML input stream reports each bad code point once | proved |  |
| C58 | HTML input stream look-ahead | proved |  |
| C59 | fill(n) tells whether n code points are available | partial | False when more than n code points are buffered. |
| C60 | CSS fallback encoding | partial | False: UTF-16 labels are not replaced by UTF-8. |
| C61 | Assigning through operator[] stores the value and nothing else | partial | False for the empty key, which overwrites the size counter; proved for all other keys. |
| C62 | Assigning to a wide-label trie replaces its contents | partial | False: assign does not clear; proved for an empty trie, exact (merging) behaviour proved for all. |
| C63 | Iterating over the children of a trie node | proved |  |
| C64 | Stepping down a trie iterator by label | partial | False for wide labels: the bound check of the byte iterator is missing and the read leaves the array; right whenever defined, and always defined for byte labels. |
| C65 | Rebuilding a trie from its integers | partial | False for 16-bit units, which are shifted by 8; proved for 8 and 32 bits. |
| C66 | front() and back() of a tree | partial | False: back() returns front(); proved for front() and for one root. |
| C67 | Character iteration yields the text of the document | partial | False for empty text nodes, which yield a zero character; proved without them, exact behaviour of ++ proved for all. |
| C68 | Single-byte encodings are one to one | proved |  |
| C69 | ISO-2022-JP text survives | proved |  |
| C70 | Text read from EUC-KR can be written again | proved |  |
| C71 | A UTF-8 text_decoder gives the text | proved |  |
| C72 | Characters an encoding lacks become numeric references in URLs | proved | The state of the ISO-2022-JP encoder is lost at each error, so there the text behind it is damaged (witness). |
| C73 | The IPv4 parser follows the URL standard | partial | False through C44. Proved for text whose parts C44_partial covers. |
| C74 | The IPv6 parser accepts exactly the texts of the URL standard | partial | Undefined behaviour for every address with an embedded IPv4 address. Proved for all text without dots; whatever is accepted is right. |
| C75 | Parsed hosts are clean | partial | Cleanness is proved up to undefined behaviour of the address parsers (C44, C74); the text of an IPv6 host returns only within C45_partial; domain_to_ascii is a parameter, so the second parse of a domain is not covered. |
| C76 | is_valid_ipv4_address_string accepts exactly dotted decimal addresses | partial | False: text that is not numeric reads an uninitialised variable or is accepted by its leading digits. Proved for text of digits and dots. |
| C77 | URL parsing and setters are defined for every string | partial | False: comparing an address host with a string fails an assertion, so the username, password and port setters of http://1.2.3.4/ and parsing file://1.2.3.4/ are undefined. Proved: nothing else in the URL parser is, beyond the host parser itself (C44, C74). |
| C78 | CSS identifiers written by the CSSOM rules are read back | partial | False for the identifiers --, -- and a digit, and url at the end of the text; the theorem is an equivalence. At-keywords and hashes are always read back. |
| C79 | CSS strings written by the CSSOM rules are read back | proved |  |
| C80 | CSS numbers are the longest match with their value | partial | False for digits of 2^32 and more, which fail an assertion. The value is exact over the parts; the rounding of double is not modelled. |
| C81 | CSS tokens are those of CSS Syntax Level 3 | partial | False for seven kinds of text and for a reverse solidus at the end; proved for all others, token by token and as a whole. |
| C82 | CSS component values are those of CSS Syntax Level 3 | partial | False: any closing token ends a simple block, so (a]b) ends at ]. Proved: the library returns for every list and follows the standard but for that, and gives the standard's result if brackets nest, for tokens only then. |
| C83 | CSS component values survive being written as tokens and parsed again | proved |  |
| C84 | A CSS declaration is parsed as CSS Syntax Level 3 says | partial | False: an empty value, the value important and a value that ends in an open block are undefined, and without a name an empty declaration is returned. Proved with exactly these exceptions, and to be the standard's result if brackets nest. |
| C85 | A list of CSS declarations is parsed as CSS Syntax Level 3 says | partial | False for the same declarations as C84. Proved: undefined exactly then, else the standard's result if brackets nest. |
| C86 | One CSS rule or component value is parsed as CSS Syntax Level 3 says | partial | False: a value or rule that is still open at the end runs into an assertion. Proved: undefined exactly then, else the standard's result if brackets nest. |
| C87 | Comma-separated CSS lists are split at the commas of the top level | proved |  |
| C88 | A CSS stylesheet is parsed as CSS Syntax Level 3 says | partial | False for mismatched brackets as C82. Proved: the library returns for every list and gives the standard's result if brackets nest. |
| C89 | A list of CSS rules is parsed as CSS Syntax Level 3 says | partial | False: parse_list_of_rules takes the list for a top-level one and drops <!-- and -->, and consume_list_of_rules below the top level asserts at each. Proved to give the standard's result without these and if brackets nest. |
| C90 | Atoms of HTML keep their string | proved |  |
| C91 | Atoms of HTML and their enumerations agree | proved |  |
| C92 | Atoms of HTML are equal exactly when their strings are | proved |  |
| C93 | HTML is serialized as the HTML standard says | partial | False: children of void elements are written, prefixes of attributes in unknown namespaces are not, and a text below a root that is no element fails an assertion. Proved for all other trees. |
| C94 | Escaped HTML strings can be read back | proved |  |
| C95 | No two HTML trees are serialized alike | proved |  |
| C96 | Tokenizing HTML always ends and never fails | proved | Relative to a look up of character references that is defined (parameter). |
| C97 | HTML is tokenized as the HTML standard says | partial | False: a numeric reference loses the end-of-file token (and the characters before it), references of 2^32 and more wrap, a name other than script behind <!--< in a script emits the start tag again and the script never ends, NUL in a comment becomes a character, CDATA is inverted, and a carriage return at the end gives two end-of-file tokens. Proved for all other texts; with numeric references, for what has been delivered. |
| C98 | Escaped text is read back as text | proved | Relative to a look up of names that agrees with a table that has the five names (parameter). |
| C99 | Serialized HTML is tokenized as the tree it was written from | proved | Relative to a look up of names that agrees with a table that has the five names (parameter). |
