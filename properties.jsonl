{"id": "C01", "title": "Byte-string trie behaves as a set of keys", "statement": "Starting from an empty trie_base, after any sequence of insert(key), erase(key) and clear(), contains(key) is true exactly for the non-empty byte strings that were inserted and not erased since, and size() is the number of those keys. Inserting or erasing one key never makes another key appear or disappear.", "quantifier": "every finite history of insert/erase/clear over byte strings of any length and content, and every probe key", "why_tests_cant": "Collisions in the double array (relocation, free-slot reuse, prefix keys) depend on the whole history; a finite suite covers a vanishing part of the reachable layouts.", "anchors": ["include/wordring/trie/trie_base.hpp: trie_base::insert, erase, contains, size, clear", "include/wordring/trie/trie_heap.hpp: trie_heap::add, locate, relocate, allocate, free"]}
{"id": "C02", "title": "Values stored in the byte-string trie survive operations on other keys", "statement": "After insert(key, v) of a new key, at(key) reads v until that key is erased or assigned through its reference, whatever other keys are inserted or erased in between.", "quantifier": "every history of inserts, erases and value writes, and every live key", "why_tests_cant": "Whether a value is kept in the node itself or in its terminator child changes with the neighbours of the key, so the failure needs a particular order of neighbouring operations.", "anchors": ["include/wordring/trie/trie_base.hpp: trie_base::insert, erase, at", "include/wordring/trie/trie_heap.hpp: trie_heap::add, free"]}
{"id": "C03", "title": "Every trie index access stays inside the node array", "statement": "No insert, erase, contains, lookup or iteration on a byte-string trie built by the public API reads or writes outside the node array, takes a slot that is in use, or loops forever, including inside the unlinked free list.", "quantifier": "every reachable double array and every key", "why_tests_cant": "Memory safety over an unbounded family of array layouts; a sanitizer run only sees the layouts the tests build.", "anchors": ["include/wordring/trie/trie_heap.hpp: trie_heap::reserve, allocate, free, locate, relocate, at, add"]}
{"id": "C04", "title": "lookup finds the longest stored prefix path and search the exact path", "statement": "search(key) returns the node of the path spelling exactly key when the path exists and the end iterator otherwise; lookup(key) returns the node reached by the longest prefix of key that is a path of the trie together with the position of the first unmatched byte.", "quantifier": "every trie reachable by the API and every key", "why_tests_cant": "Quantifies over all trie contents and all keys.", "anchors": ["include/wordring/trie/trie_base.hpp: trie_base::search, lookup, find"]}
{"id": "C05", "title": "Bulk assignment equals one-by-one insertion", "statement": "After assign(first,last) the trie contains exactly the non-empty strings of the range with size() equal to the number of distinct ones, and every later operation behaves as if the strings had been inserted one by one.", "quantifier": "every list of byte strings, sorted or not, and every later history", "why_tests_cant": "The bulk path uses a different builder (level-order) from the insert path; agreement must hold for all lists.", "anchors": ["include/wordring/trie/trie_base.hpp: trie_base::assign", "include/wordring/trie/trie_construct_iterator.hpp: trie_construct_iterator", "include/wordring/trie/list_trie_iterator.hpp"]}
{"id": "C06", "title": "Trie save and load is a round trip", "statement": "Writing a trie with operator<< and reading the bytes with operator>> yields an equal node array, and reading leaves the stream positioned just after the trie's own bytes.", "quantifier": "every node array and every following stream content", "why_tests_cant": "The byte count/node count relation matters only when more data follows, for every possible suffix.", "anchors": ["include/wordring/trie/trie_heap.hpp: operator<<, operator>>, trie_heap::ibegin, iend, assign"]}
{"id": "C07", "title": "Stable trie behaves as a map and erasing keeps other values", "statement": "Over any history of insert/erase/clear and value writes, the stable trie contains exactly the live keys and each live key reads back the last value written to it.", "quantifier": "every finite history over byte strings and values", "why_tests_cant": "Needs all interleavings of neighbouring prefix keys and relocations.", "anchors": ["include/wordring/trie/stable_trie_base.hpp: stable_trie_base::insert, erase, at, contains"]}
{"id": "C08", "title": "Terminator index of a stable trie key never changes while the key is stored", "statement": "The documented promise that the index of the terminator node of a stored key (used as the atom id) is unaffected by inserting other keys.", "quantifier": "every history of inserts after the key was stored", "why_tests_cant": "Whether a relocation hits the node depends on free-slot layout produced by all earlier operations.", "anchors": ["include/wordring/trie/stable_trie_base.hpp: stable_trie_base", "include/wordring/string/atom.hpp: basic_atom_set::insert, at"]}
{"id": "C09", "title": "Wide-label trie is a set of label strings", "statement": "A trie over 2- or 4-byte labels contains a label string exactly when it was inserted and not erased; no string whose big-endian bytes merely share a byte prefix is reported.", "quantifier": "every history over strings of 8, 16 and 32 bit labels", "why_tests_cant": "Byte-level prefixes that cross label boundaries exist for unboundedly many key pairs.", "anchors": ["include/wordring/trie/trie.hpp: basic_trie::insert, erase, contains, search, lookup", "include/wordring/trie/trie_iterator.hpp"]}
{"id": "C10", "title": "Tree container behaves as an ordered forest", "statement": "After any sequence of inserts at begin/middle/end positions and erases, walking begin()/++/end() at every level enumerates exactly the children that the history prescribes, in order, with their values; parent() is the node under which it was inserted.", "quantifier": "every finite history of insert and erase over positions obtained from the tree", "why_tests_cant": "Link updates depend on the neighbours (first/last/only child) and on slot reuse; all histories cannot be enumerated.", "anchors": ["include/wordring/tree/tree.hpp: tree::insert, push_back, push_front, erase, link, unlink, allocate, free"]}
{"id": "C11", "title": "Tree slots are neither leaked nor handed out twice", "statement": "At every point each slot of the storage is the sentinel, a node reachable from the root exactly once, or on the free list exactly once; erasing frees exactly the nodes of the subtree and a new node never overwrites a live one, so iterators to untouched nodes stay valid.", "quantifier": "every reachable tree state", "why_tests_cant": "Global partition invariant over all histories.", "anchors": ["include/wordring/tree/tree.hpp: tree::allocate, free, erase"]}
{"id": "C12", "title": "Moving a subtree keeps every node and rejects cycles", "statement": "move(pos, sub) relocates the subtree rooted at sub to pos keeping its inside and every other node; if pos lies inside sub it throws and leaves the tree unchanged.", "quantifier": "every tree, every pair of positions including end() positions", "why_tests_cant": "The pair of positions ranges over all shapes; the bad case needs an end() position below the moved node.", "anchors": ["include/wordring/tree/tree.hpp: tree::move, link, unlink"]}
{"id": "C13", "title": "Copy-inserting a subtree reproduces its shape", "statement": "insert(pos, sub) adds at pos a tree with the same shape and values as the subtree at sub.", "quantifier": "every source subtree and every target position", "why_tests_cant": "Shape errors appear only for particular depth profiles; needs all shapes.", "anchors": ["include/wordring/tree/tree.hpp: tree::insert(const_iterator, const_iterator)"]}
{"id": "C14", "title": "Depth-first tree iterator visits the subtree in document order", "statement": "The pre-order tree_iterator started at a node yields each node of its subtree exactly once, parents before children, siblings left to right, and then compares equal to the end iterator.", "quantifier": "every finite ordered tree", "why_tests_cant": "Induction over tree shape.", "anchors": ["include/wordring/tree/tree_iterator.hpp: basic_tree_iterator, pre_order_tree_iterator"]}
{"id": "C15", "title": "Level-order tree iterator visits the subtree breadth first", "statement": "The level-order tree iterator yields each node of the subtree exactly once, level by level and left to right inside a level.", "quantifier": "every finite ordered tree", "why_tests_cant": "Induction over tree shape.", "anchors": ["include/wordring/tree/tree_iterator.hpp: level_order_tree_iterator"]}
{"id": "C16", "title": "Decrementing an iterator undoes incrementing it", "statement": "For every position of a sibling list other than its first, --it moves to the preceding sibling, also from end().", "quantifier": "every tree and every sibling position", "why_tests_cant": "Positions at the root level, with one or several roots, behave differently; all shapes are quantified.", "anchors": ["include/wordring/tree/tree.hpp: node_tree_iterator::operator--, tree::back"]}
{"id": "C17", "title": "Tag tree serial order is a well-nested tag sequence", "statement": "After any history of insert and erase, serial iteration yields for every element a start tag and a later end tag, properly nested, and the elements between them are exactly its descendants in document order.", "quantifier": "every history of insert/erase on positions taken from the tree", "why_tests_cant": "Nesting is a global property of the linked list, for all histories.", "anchors": ["include/wordring/tag_tree/tag_tree.hpp: tag_tree::insert, erase, link, unlink, allocate, free", "include/wordring/tag_tree/serial_iterator.hpp"]}
{"id": "C18", "title": "Tag tree behaves as an ordered forest", "statement": "insert adds one leaf at the given position, erase removes exactly the subtree, parent()/begin()/end()/++/-- navigate the forest described by the history, and size() is its number of nodes.", "quantifier": "every history and every position", "why_tests_cant": "All shapes and histories.", "anchors": ["include/wordring/tag_tree/tag_tree.hpp", "include/wordring/tag_tree/tag_tree_iterator.hpp"]}
{"id": "C19", "title": "Moving inside a tag tree loses nothing", "statement": "move(pos, sub) keeps every node of the tree and places the subtree before pos, including when pos is the place where sub already is.", "quantifier": "every tag tree and every pair of positions outside sub", "why_tests_cant": "The adjacent case is one among unboundedly many position pairs.", "anchors": ["include/wordring/tag_tree/tag_tree.hpp: tag_tree::move"]}
{"id": "C20", "title": "static_vector behaves as a list of bounded length", "statement": "push_back, pop_back, insert, erase, resize, assign and clear within capacity act on the stored sequence as the same operations on an ordinary list, and never touch storage outside the capacity.", "quantifier": "every capacity, content and operation within capacity", "why_tests_cant": "All capacities, positions and lengths.", "anchors": ["include/wordring/static_vector/static_vector.hpp: static_vector"]}
{"id": "C21", "title": "static_vector::at rejects every position outside the sequence", "statement": "at(pos) throws out_of_range for pos >= size() and returns the element otherwise.", "quantifier": "every vector and position", "why_tests_cant": "Only positions between size and capacity misbehave; the claim ranges over all of them.", "anchors": ["include/wordring/static_vector/static_vector.hpp: static_vector::at"]}
{"id": "C22", "title": "Integer serialization round trip", "statement": "Serializing any integer sequence of a given width to bytes and deserializing gives the sequence back; the bytes are big-endian, so comparing byte strings orders like comparing the unsigned numbers.", "quantifier": "every width of 1,2,4,8 bytes and every sequence of values", "why_tests_cant": "2^64 values and all lengths.", "anchors": ["include/wordring/serialize/serialize.hpp: serialize, deserialize", "include/wordring/serialize/serialize_iterator.hpp: serialize_iterator, deserialize_iterator"]}
{"id": "C23", "title": "string_matcher reports exactly the first complete match", "statement": "Feeding code points one by one, push_back reports succeed at the first step at which the input equals one of the candidates, failed as soon as no candidate can match any more, and partial otherwise.", "quantifier": "every candidate list and every input sequence", "why_tests_cant": "All candidate sets and inputs.", "anchors": ["include/wordring/string/matcher.hpp: string_matcher"]}
{"id": "C24", "title": "UTF-8 code point round trip", "statement": "Writing a Unicode scalar value as UTF-8 and reading it back yields the same value and consumes exactly the written bytes, whatever follows.", "quantifier": "every scalar value and every following byte sequence", "why_tests_cant": "1.1 million values times all continuations.", "anchors": ["include/wordring/whatwg/infra/unicode.hpp: to_string, to_code_point"]}
{"id": "C25", "title": "UTF-16 code point round trip", "statement": "Writing a Unicode scalar value as UTF-16 and reading it back yields the same value and consumes exactly the written units, whatever follows.", "quantifier": "every scalar value and every following unit sequence", "why_tests_cant": "1.1 million values times all continuations.", "anchors": ["include/wordring/whatwg/infra/unicode.hpp: to_string, to_code_point"]}
{"id": "C26", "title": "encoding_cast between Unicode encodings is lossless", "statement": "Converting any sequence of Unicode scalar values among UTF-8, UTF-16 and UTF-32 and back gives the original string.", "quantifier": "every string of scalar values, every ordered pair of encodings", "why_tests_cant": "All strings of all lengths.", "anchors": ["include/wordring/whatwg/infra/unicode.hpp: encoding_cast"]}
{"id": "C27", "title": "Newline normalization", "statement": "normalize_newlines replaces every CR LF pair and every remaining CR by LF and changes nothing else.", "quantifier": "every string", "why_tests_cant": "All strings, in particular those ending in CR.", "anchors": ["include/wordring/whatwg/infra/infra.hpp: normalize_newlines"]}
{"id": "C28", "title": "Stripping leading and trailing whitespace", "statement": "strip_leading_and_trailing_ascii_whitespace yields the string without its maximal leading and trailing runs of ASCII whitespace.", "quantifier": "every string, including all-whitespace strings", "why_tests_cant": "All strings.", "anchors": ["include/wordring/whatwg/infra/infra.hpp: strip_leading_and_trailing_ascii_whitespace"]}
{"id": "C29", "title": "Strip and collapse whitespace", "statement": "strip_and_collapse_ascii_whitespace yields the whitespace-separated words of the string joined by single spaces.", "quantifier": "every string", "why_tests_cant": "All strings.", "anchors": ["include/wordring/whatwg/infra/infra.hpp: strip_and_collapse_ascii_whitespace"]}
{"id": "C30", "title": "Splitting on a delimiter loses nothing", "statement": "strictly_split_on_particular_delimiter yields pieces without the delimiter whose join with the delimiter is the original string.", "quantifier": "every string and delimiter", "why_tests_cant": "All strings.", "anchors": ["include/wordring/whatwg/infra/infra.hpp: strictly_split_on_particular_delimiter"]}
{"id": "C31", "title": "Splitting on whitespace and on commas", "statement": "split_on_ascii_whitespace yields exactly the maximal runs of non-whitespace in order; split_on_commas yields the comma separated pieces each stripped of surrounding whitespace.", "quantifier": "every string", "why_tests_cant": "All strings.", "anchors": ["include/wordring/whatwg/infra/infra.hpp: split_on_ascii_whitespace, split_on_commas"]}
{"id": "C32", "title": "ASCII case functions only touch ASCII letters and agree with case-insensitive match", "statement": "Lowercasing and uppercasing are idempotent, change only ASCII letters, and two strings match case-insensitively exactly when their lowercase forms are equal.", "quantifier": "every string and pair of strings", "why_tests_cant": "All pairs of strings.", "anchors": ["include/wordring/whatwg/infra/infra.hpp: to_ascii_lowercase, to_ascii_uppercase, is_ascii_case_insensitive_match"]}
{"id": "C33", "title": "UTF-8 decoding inverts UTF-8 encoding", "statement": "Decoding the UTF-8 encoding of any sequence of scalar values gives the sequence back without errors.", "quantifier": "every finite sequence of scalar values", "why_tests_cant": "All sequences.", "anchors": ["include/wordring/whatwg/encoding/coder.hpp: UTF_8_decoder, UTF_8_encoder", "include/wordring/whatwg/encoding/encoding.hpp: process_queue, process_item"]}
{"id": "C34", "title": "UTF-8 decoder accepts exactly well-formed UTF-8 and emits only scalar values", "statement": "For every byte sequence the decoder terminates, every emitted code point is a Unicode scalar value, and it reports no error exactly when the bytes are the encoding of some scalar value sequence (no overlong forms, surrogates or values above 10FFFF).", "quantifier": "every finite byte sequence", "why_tests_cant": "All byte sequences of all lengths.", "anchors": ["include/wordring/whatwg/encoding/coder.hpp: UTF_8_decoder"]}
{"id": "C35", "title": "Malformed input is replaced by U+FFFD", "statement": "In the default (replacement) error mode each decoding error contributes one U+FFFD to the output.", "quantifier": "every malformed byte sequence", "why_tests_cant": "All malformed inputs.", "anchors": ["include/wordring/whatwg/encoding/encoding.hpp: process_item, utf8_decode, decode"]}
{"id": "C36", "title": "Streaming decode does not depend on chunk boundaries", "statement": "Feeding a byte sequence to text_decoder::decode in several chunks with stream=true and a final flush yields the concatenation equal to decoding it in one call.", "quantifier": "every byte sequence and every way of cutting it into chunks", "why_tests_cant": "Exponentially many cuts of unboundedly many inputs.", "anchors": ["include/wordring/whatwg/encoding/api.hpp: text_decoder::decode, serialize_io_queue", "include/wordring/whatwg/encoding/coder.hpp: UTF_8_decoder"]}
{"id": "C37", "title": "UTF-16 decoding", "statement": "Decoding the UTF-16 (big or little endian) bytes of any scalar value sequence gives it back; after an unpaired lead surrogate the following code unit is decoded normally.", "quantifier": "every scalar value sequence, and every ill-formed unit sequence, both byte orders", "why_tests_cant": "All sequences.", "anchors": ["include/wordring/whatwg/encoding/coder.hpp: shared_UTF_16_decoder"]}
{"id": "C38", "title": "Multi-byte legacy encoders and decoders are inverse", "statement": "For EUC-KR, EUC-JP, Shift_JIS, Big5 and GBK/gb18030 two-byte forms: whenever the encoder maps a code point to bytes, the decoder maps those bytes back to it.", "quantifier": "every code point that the index maps, every following input", "why_tests_cant": "Tens of thousands of code points times all continuations, for each encoding.", "anchors": ["include/wordring/whatwg/encoding/coder.hpp: EUC_KR_decoder, EUC_KR_encoder, EUC_JP_decoder, EUC_JP_encoder, Shift_JIS_decoder, Shift_JIS_encoder, Big5_decoder, Big5_encoder, gb18030_decoder, gb18030_encoder"]}
{"id": "C39", "title": "Every encoder terminates", "statement": "For every input the ISO-2022-JP encoder run through process_queue finishes and emits a bounded number of bytes per input code point.", "quantifier": "every code point sequence", "why_tests_cant": "Non-termination is not observable by a finite test of terminating inputs.", "anchors": ["include/wordring/whatwg/encoding/coder.hpp: ISO_2022_JP_encoder", "include/wordring/whatwg/encoding/encoding.hpp: process_queue"]}
{"id": "C40", "title": "gb18030 covers every code point", "statement": "Every Unicode scalar value outside the private exceptions can be encoded to gb18030 and decoded back; in particular all supplementary code points have a four-byte form.", "quantifier": "every scalar value", "why_tests_cant": "1.1 million values; the property concerns the table look-up boundary.", "anchors": ["include/wordring/whatwg/encoding/coder.hpp: get_index_gb18030_ranges_code_point, get_index_gb18030_ranges_pointer"]}
{"id": "C41", "title": "Encoding name and label agree", "statement": "For every encoding name, looking up the label returned by get_encoding_label gives the same encoding name; look-up ignores surrounding ASCII whitespace and ASCII case.", "quantifier": "every encoding name; every padding and case variant of every label", "why_tests_cant": "Padding and case variants are unbounded.", "anchors": ["include/wordring/whatwg/encoding/encoding.hpp: get_encoding_label, get_encoding_name", "lib/whatwg/encoding/encoding.cpp: get_encoding_name"]}
{"id": "C42", "title": "Percent encoding round trip", "statement": "percent_decode of the percent encoding of every byte string is that string when '%' is in the encode set, and the encoded form contains only ASCII code points outside the set besides the escapes.", "quantifier": "every byte string and every encode set containing '%'", "why_tests_cant": "All strings and sets.", "anchors": ["include/wordring/whatwg/url/infra.hpp: percent_encode, percent_decode, percent_encode_after_encoding, utf8_percent_encode"]}
{"id": "C43", "title": "IPv4 addresses round trip through text", "statement": "Parsing the serialization of any 32-bit address gives that address back without a validation error.", "quantifier": "every 32-bit value", "why_tests_cant": "4 billion values.", "anchors": ["lib/whatwg/url/host.cpp: serialize_ipv4, parse_ipv4, parse_ipv4_number"]}
{"id": "C44", "title": "IPv4 number parsing is exact", "statement": "parse_ipv4_number returns the numeric value of the digits in the announced radix, and rejects strings with digits outside the radix; it never reads an indeterminate value.", "quantifier": "every string", "why_tests_cant": "All strings, including those longer than the machine word and with digit 8 after a leading zero.", "anchors": ["lib/whatwg/url/host.cpp: parse_ipv4_number"]}
{"id": "C45", "title": "IPv6 addresses round trip through text", "statement": "Parsing the serialization of any IPv6 address gives that address back.", "quantifier": "every sequence of eight 16-bit pieces", "why_tests_cant": "2^128 addresses; the failing ones need a particular pattern of zero runs.", "anchors": ["lib/whatwg/url/host.cpp: serialize_ipv6, parse_ipv6"]}
{"id": "C46", "title": "URL parsing terminates", "statement": "basic_url_parser::run finishes on every input, base and state override, after a number of steps bounded by a linear function of the input length.", "quantifier": "every input string, base URL and override state", "why_tests_cant": "Termination over all inputs.", "anchors": ["lib/whatwg/url/url.cpp: basic_url_parser::run and the on_*_state members"]}
{"id": "C47", "title": "Parsed URL components are percent-encoded", "statement": "In every URL record that parsing (with any base that was itself obtained so, in any output encoding but ISO-2022-JP) and any sequence of basic_url setters give, username, password, path, query and fragment contain only printable ASCII outside the respective percent-encode set (path segments of a cannot-be-a-base URL: the C0 control set).", "quantifier": "every sequence of parser and setter calls with strings of scalar values, every behaviour of domain_to_ascii that gives no empty domain", "why_tests_cant": "All inputs through a 21-state machine.", "anchors": ["lib/whatwg/url/url.cpp: basic_url_parser::run", "include/wordring/whatwg/url/infra.hpp: utf8_percent_encode"]}
{"id": "C48", "title": "Ports are accepted exactly in 0..65535 and default ports are dropped", "statement": "A decimal port between 0 and 65535 is accepted and stored (or dropped when it is the default of the scheme) and any larger one is rejected.", "quantifier": "every digit string as port and every scheme", "why_tests_cant": "Boundary of an unbounded numeric range.", "anchors": ["lib/whatwg/url/url.cpp: basic_url_parser::on_port_state, default_port"]}
{"id": "C49", "title": "Parsed special URLs always have a host and no dot segments remain", "statement": "A URL record that parsing and setters give and whose scheme is special has a host, non-empty unless the scheme is file; a file URL has neither credentials nor port; no path segment is a single- or double-dot segment, unless the URL cannot be a base; credentials and ports only come with a host, default ports are dropped.", "quantifier": "every sequence of parser and setter calls with strings of scalar values, every behaviour of domain_to_ascii that gives no empty domain", "why_tests_cant": "All inputs through the state machine.", "anchors": ["lib/whatwg/url/url.cpp: basic_url_parser::on_path_state, on_hostname_state, on_file_state"]}
{"id": "C50", "title": "CSS input preprocessing", "statement": "filter_code_points replaces CR LF, CR and FF by LF and NUL and surrogates by U+FFFD, keeps everything else, and never writes ahead of the reading position.", "quantifier": "every code point sequence", "why_tests_cant": "All sequences.", "anchors": ["include/wordring/wwwc/css_syntax/input_stream.hpp: filter_code_points"]}
{"id": "C51", "title": "CSS tokenizer makes progress", "statement": "Every call of consume_token on a non-empty rest either returns the end-of-file token or consumes at least one code point, so tokenize terminates; it never reads past the end.", "quantifier": "every code point sequence", "why_tests_cant": "Non-termination and reads past the end at unboundedly many inputs.", "anchors": ["include/wordring/wwwc/css_syntax/tokenization.hpp: consume_token, consume_number, tokenize"]}
{"id": "C52", "title": "CSS escapes denote scalar values and hex escapes denote their number", "statement": "consume_escaped_code_point returns U+FFFD or a valid code point, takes at most six hex digits and one following whitespace, and yields the number written.", "quantifier": "every input", "why_tests_cant": "All digit strings and continuations.", "anchors": ["include/wordring/wwwc/css_syntax/tokenization.hpp: consume_escaped_code_point"]}
{"id": "C53", "title": "HTML input stream normalizes newlines independently of delivery", "statement": "Pushing code points one at a time and then end-of-file delivers to the tokenizer the sequence in which every CR LF and CR is replaced by LF.", "quantifier": "every code point sequence", "why_tests_cant": "All sequences.", "anchors": ["include/wordring/whatwg/html/parsing/input_stream.hpp: push_code_point, push_eof"]}
{"id": "C54", "title": "Code point classification", "statement": "is_noncharacter answers yes exactly for the 66 noncharacters, and is_scalar_value exactly for the Unicode scalar values.", "quantifier": "every 32-bit value", "why_tests_cant": "All values, including those beyond U+10FFFF.", "anchors": ["include/wordring/whatwg/infra/infra.hpp: is_noncharacter, is_scalar_value, is_surrogate"]}
{"id": "C55", "title": "Inserting an element of the vector itself", "statement": "static_vector::insert(pos, v[i]) inserts a copy of the element v[i] had before the call, as std::vector does.", "quantifier": "every vector, position and element index", "why_tests_cant": "Aliasing between the argument and the moved elements at all relative positions.", "anchors": ["include/wordring/static_vector/static_vector.hpp: static_vector::insert"]}
{"id": "C56", "title": "Iterators of a static_vector reach every position", "statement": "Advancing an iterator by n lands on the position n further whenever that is between begin() and end().", "quantifier": "every vector, position and distance", "why_tests_cant": "All sizes including full vectors.", "anchors": ["include/wordring/static_vector/static_vector.hpp: static_vector_iterator::operator+="]}
{"id": "C57", "title": "HTML input stream reports each bad code point once", "statement": "Each surrogate, noncharacter and disallowed control pushed is reported exactly once with its own error, in input order, and no other code point is reported.", "quantifier": "every code point sequence", "why_tests_cant": "All sequences.", "anchors": ["include/wordring/whatwg/html/parsing/input_stream.hpp: push_code_point"]}
{"id": "C58", "title": "HTML input stream look-ahead", "statement": "reconsume() directly after consume() restores the stream, consume(n) drops exactly n code points, and match() answers whether the label is a prefix of what lies ahead, up to ASCII case if asked.", "quantifier": "every buffer, label and flag combination", "why_tests_cant": "All buffers and labels.", "anchors": ["include/wordring/whatwg/html/parsing/input_stream.hpp: consume, reconsume, match"]}
{"id": "C59", "title": "fill(n) tells whether n code points are available", "statement": "fill(n) is true exactly when at least n code points are buffered or the end of file was pushed.", "quantifier": "every buffer and n", "why_tests_cant": "All buffer sizes relative to n.", "anchors": ["include/wordring/whatwg/html/parsing/input_stream.hpp: fill"]}
{"id": "C60", "title": "CSS fallback encoding", "statement": "An explicit fallback wins; otherwise a leading @charset rule selects the encoding of its label, UTF-8 standing in for UTF-16 and for unknown or malformed rules.", "quantifier": "every byte sequence, label table and fallback", "why_tests_cant": "All byte sequences.", "anchors": ["include/wordring/wwwc/css_syntax/input_stream.hpp: determine_fallback_encoding"]}
{"id": "C61", "title": "Assigning through operator[] stores the value and nothing else", "statement": "trie[key] = v on either byte-string trie inserts the key if it is absent, makes at(key) read v, changes size() by at most one and leaves every other key and value alone.", "quantifier": "every history, key and value", "why_tests_cant": "All trie contents; the empty key is a boundary no test probes.", "anchors": ["include/wordring/trie/trie_base.hpp: operator[]", "include/wordring/trie/stable_trie_base.hpp: operator[]"]}
{"id": "C62", "title": "Assigning to a wide-label trie replaces its contents", "statement": "After trie<Label>::assign(first, last) the stored keys are exactly the keys of the range, whatever the trie held before.", "quantifier": "every history before the call, every key range, every label width", "why_tests_cant": "All previous contents; a test that assigns to a fresh trie sees nothing.", "anchors": ["include/wordring/trie/trie.hpp: trie::assign"]}
{"id": "C63", "title": "Iterating over the children of a trie node", "statement": "From the iterator at any path, the loop from begin() to end() ends and visits exactly the labels that continue the path to a stored key, once each and in increasing order; parent() undoes a step down, string() spells the path, and conversion to bool tells whether the path itself is stored.", "quantifier": "every history, every path, every label width, both tries", "why_tests_cant": "Unbounded tries; wide labels make the loop jump over several inner levels.", "anchors": ["include/wordring/trie/trie_base_iterator.hpp: operator++, parent, begin, operator bool", "include/wordring/trie/trie_iterator.hpp: operator++, parent, begin, operator*", "include/wordring/trie/stable_trie_base_iterator.hpp"]}
{"id": "C64", "title": "Stepping down a trie iterator by label", "statement": "it[label] is the iterator of the path extended by label if that is a path of the trie and the end iterator otherwise, for every label.", "quantifier": "every history, path and label, every label width", "why_tests_cant": "Absent labels near the end of the node array are only hit by special layouts.", "anchors": ["include/wordring/trie/trie_base_iterator.hpp: operator[]", "include/wordring/trie/trie_iterator.hpp: operator[]"]}
{"id": "C65", "title": "Rebuilding a trie from its integers", "statement": "The integers of [ibegin(), iend()), cut into 8-, 16- or 32-bit units most significant first, given to assign(first, last, n) rebuild the same node array.", "quantifier": "every node array, unit widths 1, 2 and 4 bytes", "why_tests_cant": "The shift in the unit-combining loop is wrong only for widths tests do not use, and only for words with high bits set.", "anchors": ["include/wordring/trie/trie_heap.hpp: trie_heap::assign, ibegin, iend"]}
{"id": "C66", "title": "front() and back() of a tree", "statement": "On a tree with at least one root front() is the value of the first root and back() that of the last.", "quantifier": "every non-empty reachable tree", "why_tests_cant": "Trees with one root, the usual case in tests, do not tell the two apart.", "anchors": ["include/wordring/tree/tree.hpp: tree::front, tree::back"]}
{"id": "C67", "title": "Character iteration yields the text of the document", "statement": "A loop with a character iterator from the first node to its end yields exactly the characters of all text nodes in document order, and a loop with -- from the end yields them in reverse; a text node without characters yields nothing.", "quantifier": "every history of insert, erase, move and clear, every classification of nodes as text nodes, every text", "why_tests_cant": "Test documents have two or three non-empty text nodes; neither empty texts nor runs of tags between texts nor the way back are varied.", "anchors": ["include/wordring/tag_tree/character_iterator.hpp: const_tag_tree_character_iterator, operator++, operator--, operator*", "include/wordring/tag_tree/tag_tree.hpp: tag_tree"]}
{"id": "C68", "title": "Single-byte encodings are one to one", "statement": "In each of the 29 single-byte encodings a text is encoded to some bytes without error exactly if these bytes are decoded to that text without error.", "quantifier": "every single-byte encoding, every text, every byte sequence", "why_tests_cant": "All strings over 29 tables; a test looks at a few characters of a few tables.", "anchors": ["include/wordring/whatwg/encoding/coder.hpp: single_byte_decoder, single_byte_encoder, x_user_defined_decoder, x_user_defined_encoder", "include/wordring/whatwg/encoding/encoding_indexes.hpp"]}
{"id": "C69", "title": "ISO-2022-JP text survives", "statement": "Every text over ASCII without the shift and escape controls, yen sign, overline and the characters of JIS X 0208 is encoded to ISO-2022-JP without error, in a bounded number of bytes per character, and decoded back to the same text.", "quantifier": "every text over that repertoire, with any sequence of character set changes", "why_tests_cant": "Escape sequences depend on the preceding characters; sequences of changes are unbounded.", "anchors": ["include/wordring/whatwg/encoding/coder.hpp: ISO_2022_JP_decoder, ISO_2022_JP_encoder"]}
{"id": "C70", "title": "Text read from EUC-KR can be written again", "statement": "A text that was decoded from EUC-KR bytes without error can be encoded as EUC-KR without error, and the result decodes to the same text.", "quantifier": "every byte sequence", "why_tests_cant": "All byte sequences; needs the two index tables to cover each other.", "anchors": ["include/wordring/whatwg/encoding/coder.hpp: EUC_KR_decoder, EUC_KR_encoder"]}
{"id": "C71", "title": "A UTF-8 text_decoder gives the text", "statement": "Bytes fed in pieces to a UTF-8 text_decoder give, if fatal is false, the code points the bytes decode to with a replacement character for each maximal malformed part; if fatal is true the text the bytes are the UTF-8 form of, and an exception exactly if there is none. A leading byte order mark is dropped unless ignore_bom is set.", "quantifier": "every byte sequence, every way of cutting it, both flags", "why_tests_cant": "All byte sequences and cuts, with malformed and truncated sequences anywhere.", "anchors": ["include/wordring/whatwg/encoding/api.hpp: text_decoder::decode, serialize_io_queue", "include/wordring/whatwg/encoding/coder.hpp: UTF_8_decoder"]}
{"id": "C72", "title": "Characters an encoding lacks become numeric references in URLs", "statement": "percent_encode_after_encoding with any encoding but ISO-2022-JP treats the text code point by code point: one the encoding has becomes the percent encoding of its bytes, any other the escaped reference %26%23N%3B with its decimal number.", "quantifier": "every encoding with an encoder except ISO-2022-JP, every percent-encode set, every text", "why_tests_cant": "The restart of the encoder after each error must neither lose nor repeat text, for every mixture of encodable and unencodable characters.", "anchors": ["include/wordring/whatwg/url/infra.hpp: percent_encode_after_encoding, serialize_integer", "include/wordring/whatwg/encoding/encoding.hpp: encode_or_fail"]}
{"id": "C73", "title": "The IPv4 parser follows the URL standard", "statement": "parse_ipv4 returns a text that does not consist of one to four numbers as it is, fails if the numbers do not fit, and otherwise gives the address they denote, the last number filling the remaining bytes; a validation error is reported exactly for a trailing dot, a number that is not decimal or a number over 255.", "quantifier": "every string of code points", "why_tests_cant": "All strings; mixtures of radixes, part counts and limits.", "anchors": ["include/wordring/whatwg/url/host.hpp: host", "lib/whatwg/url/host.cpp: parse_ipv4"]}
{"id": "C74", "title": "The IPv6 parser accepts exactly the texts of the URL standard", "statement": "parse_ipv6 gives the address a text denotes by the grammar of eight hexadecimal pieces with at most one \"::\" and an optional trailing dotted IPv4 address, and fails for all other texts.", "quantifier": "every string of code points", "why_tests_cant": "All strings; positions of the compression and of the embedded address interact.", "anchors": ["lib/whatwg/url/host.cpp: parse_ipv6"]}
{"id": "C75", "title": "Parsed hosts are clean", "statement": "Whatever parse_host returns is a failure, a domain without forbidden host code points, a 32 bit IPv4 address, an IPv6 address of eight 16 bit pieces, or an opaque host of printable ASCII without forbidden code points but '%'; its text is parsed to the same host again.", "quantifier": "every string of scalar values, special and not special, every behaviour of domain_to_ascii", "why_tests_cant": "All strings through percent decoding, UTF-8 decoding and a foreign library.", "anchors": ["lib/whatwg/url/host.cpp: parse_host, parse_opaque_host, serialize_host"]}
{"id": "C76", "title": "is_valid_ipv4_address_string accepts exactly dotted decimal addresses", "statement": "is_valid_ipv4_address_string is true exactly for four decimal numbers of at most four digits up to 255 separated by dots, and is defined for every string.", "quantifier": "every string of code points", "why_tests_cant": "All strings; malformed ones are not in the tests.", "anchors": ["lib/whatwg/url/host.cpp: is_valid_ipv4_address_string"]}
{"id": "C77", "title": "URL parsing and setters are defined for every string", "statement": "No call of the URL parser with UTF-8 and no setter of a URL record obtained by parsing runs into undefined behaviour or a failing assertion.", "quantifier": "every string of scalar values, base, record and setter", "why_tests_cant": "All strings through the state machine, the host parsers and the assertions of host comparison.", "anchors": ["lib/whatwg/url/url.cpp: basic_url_parser::run, cannot_have_username_or_password_or_port, on_file_host_state", "include/wordring/whatwg/url/host.hpp: operator==", "include/wordring/whatwg/url/api.hpp: basic_url"]}
{"id": "C78", "title": "CSS identifiers written by the CSSOM rules are read back", "statement": "Tokenizing an identifier serialized as CSSOM says, followed by anything that cannot continue it, gives an identifier token with that value (NUL as U+FFFD) and leaves what follows; the same holds for at-keywords, hashes and function names.", "quantifier": "every non-empty sequence of code points and every continuation", "why_tests_cant": "All identifiers, escapes at every position and all continuations; the tests have a few plain names.", "anchors": ["include/wordring/wwwc/css_syntax/tokenization.hpp: consume_token, consume_ident_like_token, consume_identifier, consume_escaped_code_point, starts_with_identifier"]}
{"id": "C79", "title": "CSS strings written by the CSSOM rules are read back", "statement": "Tokenizing a string serialized as CSSOM says gives a string token with that value (NUL as U+FFFD), whatever follows.", "quantifier": "every sequence of code points and every continuation", "why_tests_cant": "All contents with quotes, newlines, controls and backslashes, next to any following text.", "anchors": ["include/wordring/wwwc/css_syntax/tokenization.hpp: consume_token, consume_string_token, consume_escaped_code_point"]}
{"id": "C80", "title": "CSS numbers are the longest match with their value", "statement": "Of a text that starts with a number exactly the longest number is consumed, its value is the number written and the type flag says whether it is written as an integer.", "quantifier": "every code point sequence that starts with a number", "why_tests_cant": "All digit strings, exponents and continuations such as 1e, 1e+, 1..2.", "anchors": ["include/wordring/wwwc/css_syntax/tokenization.hpp: consume_number, convert_string_to_number, starts_with_number"]}
{"id": "C81", "title": "CSS tokens are those of CSS Syntax Level 3", "statement": "tokenize gives the token list the standard defines for the text.", "quantifier": "every code point sequence", "why_tests_cant": "All texts; the look-ahead of hyphens, escapes, url( and comments combines in unboundedly many ways.", "anchors": ["include/wordring/wwwc/css_syntax/tokenization.hpp: tokenize, consume_token"]}
{"id": "C82", "title": "CSS component values are those of CSS Syntax Level 3", "statement": "parse_list_of_component_values returns for every list of tokens and gives the component values the standard defines.", "quantifier": "every list of tokens, functions and simple blocks", "why_tests_cant": "Brackets nest to any depth and may be mismatched or unclosed anywhere; tests have a few small inputs.", "anchors": ["include/wordring/wwwc/css_syntax/parsing.hpp: parse_list_of_component_values, consume_component_value, consume_simple_block, consume_function"]}
{"id": "C83", "title": "CSS component values survive being written as tokens and parsed again", "statement": "Parsing the tokens of a list of component values gives that list; parsing keeps all tokens of the input in order, up to the kind of closing tokens and closing tokens missing at the end; and parsing the tokens of a result gives the result again.", "quantifier": "every list of component values and every list of tokens", "why_tests_cant": "All trees of any depth.", "anchors": ["include/wordring/wwwc/css_syntax/parsing.hpp: parse_list_of_component_values, consume_component_value, consume_simple_block, consume_function"]}
{"id": "C84", "title": "A CSS declaration is parsed as CSS Syntax Level 3 says", "statement": "parse_declaration returns for every list of tokens and gives the standard's declaration with its name, value and important flag, or nothing.", "quantifier": "every list of tokens, functions and simple blocks", "why_tests_cant": "All values, with whitespace and !important in any position, empty values included.", "anchors": ["include/wordring/wwwc/css_syntax/parsing.hpp: parse_declaration, consume_declaration, process_important, token_stream::next_input_token"]}
{"id": "C85", "title": "A list of CSS declarations is parsed as CSS Syntax Level 3 says", "statement": "parse_list_of_declarations returns for every list of tokens and gives the standard's declarations and at-rules in order.", "quantifier": "every list of tokens, functions and simple blocks", "why_tests_cant": "All mixtures of declarations, at-rules and errors with recovery at semicolons.", "anchors": ["include/wordring/wwwc/css_syntax/parsing.hpp: parse_list_of_declarations, consume_list_of_declarations, consume_declaration, consume_at_rule"]}
{"id": "C86", "title": "One CSS rule or component value is parsed as CSS Syntax Level 3 says", "statement": "parse_rule and parse_component_value return for every list of tokens and give the one rule or value in it, or nothing if there is none or more.", "quantifier": "every list of tokens, functions and simple blocks", "why_tests_cant": "All inputs with rules and blocks left open at the end.", "anchors": ["include/wordring/wwwc/css_syntax/parsing.hpp: parse_rule, parse_component_value, token_stream::next_input_token"]}
{"id": "C87", "title": "Comma-separated CSS lists are split at the commas of the top level", "statement": "parse_comma_separated_list_of_component_values returns at least one list, none has a comma, and joined with commas they are the component values of the whole input.", "quantifier": "every list of tokens, functions and simple blocks", "why_tests_cant": "Commas at the ends, in a row and within blocks, in any number.", "anchors": ["include/wordring/wwwc/css_syntax/parsing.hpp: parse_comma_separated_list_of_component_values"]}
{"id": "C88", "title": "A CSS stylesheet is parsed as CSS Syntax Level 3 says", "statement": "parse_stylesheet returns for every list of tokens and gives the standard's rules, at-rules and qualified rules with their preludes and blocks.", "quantifier": "every list of tokens, functions and simple blocks", "why_tests_cant": "All sequences of rules with errors anywhere.", "anchors": ["include/wordring/wwwc/css_syntax/parsing.hpp: parse_stylesheet, consume_list_of_rules, consume_at_rule, consume_qualified_rule"]}
{"id": "C89", "title": "A list of CSS rules is parsed as CSS Syntax Level 3 says", "statement": "parse_list_of_rules and consume_list_of_rules below the top level return for every list of tokens and give the standard's rules, with <!-- and --> as part of them.", "quantifier": "every list of tokens, functions and simple blocks", "why_tests_cant": "All sequences of rules with <!-- and --> anywhere.", "anchors": ["include/wordring/wwwc/css_syntax/parsing.hpp: parse_list_of_rules, consume_list_of_rules"]}
{"id": "C90", "title": "Atoms of HTML keep their string", "statement": "A namespace, tag or attribute name atom made of any string gives that string back.", "quantifier": "every Unicode string, for each of the three kinds of atoms and each character type", "why_tests_cant": "All strings, those in the tables and those that are not, in three encodings.", "anchors": ["include/wordring/whatwg/html/html_atom.hpp: basic_html_atom, operator string_type", "lib/whatwg/html/parsing/atom_tbl.cpp: tag_atom_tbl, attribute_atom_tbl, ns_uri_atom_tbl"]}
{"id": "C91", "title": "Atoms of HTML and their enumerations agree", "statement": "An atom made of an enumerator gives the string the enumerator is named after, and an atom of that string converts to the enumerator; a string whose atom converts to an enumerator is the string of that enumerator.", "quantifier": "every enumerator of ns_name, tag_name and attribute_name; every Unicode string", "why_tests_cant": "Over a thousand names in two tables each, and all strings outside of the tables.", "anchors": ["include/wordring/whatwg/html/html_atom.hpp: basic_html_atom, operator name_type", "lib/whatwg/html/parsing/atom_tbl.cpp: tag_name_tbl, attribute_name_tbl, ns_uri_tbl", "include/wordring/whatwg/html/parsing/atom_defs.hpp: ns_name, tag_name, attribute_name"]}
{"id": "C92", "title": "Atoms of HTML are equal exactly when their strings are", "statement": "However two atoms were made, from strings, from enumerators or by default, == holds exactly when their strings are equal, != otherwise, and comparison with an enumerator or a string agrees; equal atoms convert to the same enumerator.", "quantifier": "every two atoms, enumerators and strings", "why_tests_cant": "All pairs of strings, with every way to make the atoms.", "anchors": ["include/wordring/whatwg/html/html_atom.hpp: operator==, operator!="]}
{"id": "C93", "title": "HTML is serialized as the HTML standard says", "statement": "to_string writes for every tree what the fragment serialization algorithm of the HTML standard says.", "quantifier": "every tree of elements, attributes, texts, comments, processing instructions and document types, with any strings, each character type of the tree and of the output", "why_tests_cant": "Trees have any shape and depth, names and namespaces are any strings.", "anchors": ["include/wordring/whatwg/html/parsing/serializing.hpp: to_string, get_tag_name, get_attributes_serialized_name, escape_string, serializes_as_void", "include/wordring/html/simple_node.hpp: simple_element, simple_attr", "include/wordring/html/simple_traits.hpp: node_traits"]}
{"id": "C94", "title": "Escaped HTML strings can be read back", "statement": "The escaped form of a string has no <, > (texts) or quotation mark (attributes) and no no-break space, every & in it begins one of five references, and replacing these gives the string.", "quantifier": "every Unicode string, both modes, each character type of the string and of the output", "why_tests_cant": "All strings, with references, parts of references and escaped references in them.", "anchors": ["include/wordring/whatwg/html/parsing/serializing.hpp: escape_string"]}
{"id": "C95", "title": "No two HTML trees are serialized alike", "statement": "If two trees of HTML elements, any texts and attribute values, comments without -->, processing instructions and document types without > are written as the same string, they are the same tree. No text or attribute value can pass for markup.", "quantifier": "every two such trees, each character type", "why_tests_cant": "Pairs of trees of any shape; all texts and values that look like markup.", "anchors": ["include/wordring/whatwg/html/parsing/serializing.hpp: to_string, escape_string"]}
{"id": "C96", "title": "Tokenizing HTML always ends and never fails", "statement": "Pushing any code points into the tokenizer and then the end of the file ends, after a number of steps linear in the length of the text; no assertion fails, no empty optional is read and nothing is read behind the end of a buffer, whatever the tree construction stage does with the tokens.", "quantifier": "every text, every tree construction stage that switches to RCDATA, RAWTEXT, script data or PLAINTEXT after start tags only, every defined look up of character references", "why_tests_cant": "Texts of any length walk through eighty states with look ahead, reconsumption and nested flushing; tests see a few paths.", "anchors": ["include/wordring/whatwg/html/parsing/tokenization.hpp: tokenizer", "include/wordring/whatwg/html/parsing/input_stream.hpp: push_code_point, push_eof, emit_code_point, flush_code_point, consume, reconsume, fill"]}
{"id": "C97", "title": "HTML is tokenized as the HTML standard says", "statement": "The tree construction stage gets exactly the tokens that the tokenization stage of the HTML standard emits for the text, in order, the end-of-file token last.", "quantifier": "every text, every tree construction stage, every table of named character references", "why_tests_cant": "All texts; the standard is a machine of eighty states.", "anchors": ["include/wordring/whatwg/html/parsing/tokenization.hpp: tokenizer", "include/wordring/whatwg/html/parsing/input_stream.hpp: match, match_named_character_reference", "include/wordring/whatwg/html/parsing/token.hpp: start_tag_token, end_tag_token, token_attributes"]}
{"id": "C98", "title": "Escaped text is read back as text", "statement": "Escaping a string and tokenizing the result gives character tokens for exactly the characters of the string, then the end of the file: no tag, comment or other reference.", "quantifier": "every Unicode string without carriage return, each character type, every tree construction stage, every table of names that has the five names the serializer writes", "why_tests_cant": "All strings, with anything that looks like markup or a reference in them, through two components.", "anchors": ["include/wordring/whatwg/html/parsing/serializing.hpp: escape_string", "include/wordring/whatwg/html/parsing/tokenization.hpp: tokenizer", "include/wordring/whatwg/html/parsing/input_stream.hpp: push_code_point, match_named_character_reference"]}
{"id": "C99", "title": "Serialized HTML is tokenized as the tree it was written from", "statement": "Tokenizing what to_string writes for a tree gives the start tags with their attributes, end tags, characters, comments and document types of the tree, in order, and nothing else.", "quantifier": "every tree of HTML elements (none with raw text) with plain names, any attribute values without NUL and carriage return, any texts without carriage return, comments without --, document types; each character type of the tree; tree construction stages that do not switch the tokenizer", "why_tests_cant": "Trees of any shape with any texts and values, through two components; a single value that ends its attribute early would be an injection.", "anchors": ["include/wordring/whatwg/html/parsing/serializing.hpp: to_string, escape_string", "include/wordring/whatwg/html/parsing/tokenization.hpp: tokenizer", "include/wordring/whatwg/html/parsing/input_stream.hpp: push_code_point"]}
{"id": "C100", "title": "Named character references are looked up as in the HTML standard", "statement": "match_named_character_reference finds the longest of the standard's 2231 names that the buffer begins with, gives its one or two code points, and reads nothing outside of its tables.", "quantifier": "every text in the buffer", "why_tests_cant": "2231 names packed into a table of 33148 nodes; every name can be followed by anything, and texts may leave a name at any point.", "anchors": ["include/wordring/whatwg/html/parsing/input_stream.hpp: match_named_character_reference", "lib/whatwg/html/parsing/atom_tbl.cpp: named_character_reference_idx_tbl, named_character_reference_map_tbl", "include/wordring/trie/trie_iterator.hpp: operator[], parent, string"]}
{"id": "C101", "title": "Tokenizing HTML with the library's own table of character references", "statement": "With the table of names that the library has, tokenizing any text is defined and ends; the tokens are those of the HTML standard with the standard's list of names, and escaped texts and serialized trees are read back as in C98 and C99.", "quantifier": "every text, every tree construction stage; every escaped string, every plain tree", "why_tests_cant": "All texts, through the tokenizer, the input buffer and a packed trie; a single beginning of a name that leaves the table is enough to break it.", "anchors": ["include/wordring/whatwg/html/parsing/tokenization.hpp: tokenizer: on_named_character_reference_state", "include/wordring/whatwg/html/parsing/input_stream.hpp: match_named_character_reference, fill", "lib/whatwg/html/parsing/atom_tbl.cpp: named_character_reference_idx_tbl", "include/wordring/whatwg/html/parsing/serializing.hpp: to_string, escape_string"]}
{"id": "C102", "title": "Selectors are parsed as the Selectors standard says", "statement": "Parsing a selector gives the list of complex selectors, combinators, compound selectors and simple selectors that the grammar of Selectors Level 4 gives it; a text that is not a selector as a whole gives nothing.", "quantifier": "every list of component values, every set of declared namespace prefixes; every text through the tokenizer", "why_tests_cant": "Texts of any length; optional parts, white space that is sometimes a combinator, and prefixes that look like names make it ambiguous where a part ends.", "anchors": ["include/wordring/wwwc/selectors/api.hpp: parse_selector", "lib/wwwc/selectors/grammar.cpp: consume of wq_name, id_selector, class_selector, attribute_selector, pseudo_class_selector, pseudo_element_selector, type_selector, compound_selector, complex_selector, complex_selector_list", "include/wordring/wwwc/css_syntax/parsing.hpp: parse_grammar, normalize_into_token_stream"]}
{"id": "C103", "title": "Selectors match the elements they represent", "statement": "A parsed list of selectors matches a node just when one of its selectors represents that node: type, namespace, id, class, attributes with all operators and modifiers, :root, and the child, descendant, next-sibling and subsequent-sibling combinators, in HTML documents with and without quirks and in XML documents.", "quantifier": "every tree that calls can build, every node, every selector, each type and mode of document, every set of prefixes", "why_tests_cant": "Trees of any shape and selectors of any length; combinators search upwards and sideways with backtracking.", "anchors": ["include/wordring/wwwc/selectors/grammar.hpp: match of complex_selector_list, complex_selector, compound_selector, type_selector, id_selector, class_selector, attribute_selector, pseudo_class_selector", "include/wordring/tree/tree.hpp: iterators"]}
{"id": "C104", "title": "Queries find exactly the matching descendants, in document order", "statement": "query_selector_all on a node of a document returns each descendant of the node that the selector represents, once, in document order, and nothing else; query_selector returns the first of them. Both return.", "quantifier": "every tree that calls can build, every node in it, every selector, as component values or as text", "why_tests_cant": "Trees of any shape; the scope, the start of the search and the matching meet.", "anchors": ["include/wordring/css/selector.hpp: query_selector_all, query_selector", "include/wordring/whatwg/dom/infrastructure.hpp: scope_match", "include/wordring/wwwc/selectors/api.hpp: match_selector", "include/wordring/tree/tree_iterator.hpp: basic_tree_iterator"]}
{"id": "C105", "title": "Parsing HTML never runs into undefined behaviour", "statement": "Parsing a text gives a document: no operation on an empty stack of open elements, no failed assertion, no iterator of an erased element, no null pointer and no node moved below itself, whatever the text is.", "quantifier": "every text, every sequence of tokens", "why_tests_cant": "Texts of any length lead the stack of open elements, the list of formatting elements and 23 insertion modes through combinations no test suite enumerates.", "anchors": ["include/wordring/whatwg/html/parsing/tree_construction_dispatcher.hpp: tree_construction_dispatcher", "include/wordring/html/simple_parser.hpp: simple_parser, parse"]}
{"id": "C106", "title": "Parsing HTML always ends", "statement": "Every token is reprocessed a bounded number of times, so that parsing any text returns.", "quantifier": "every sequence of tokens, every text", "why_tests_cant": "Reprocessing is a recursion between 23 insertion modes; whether it ends depends on the stack of open elements, which can have any contents.", "anchors": ["include/wordring/whatwg/html/parsing/tree_construction_dispatcher.hpp: on_emit_token, process_token, reprocess_token, reset_insertion_mode_appropriately", "include/wordring/html/simple_parser.hpp: parse"]}
{"id": "C107", "title": "A parsed document has the shape of an HTML document", "statement": "The document has one element, html, whose elements are head and then body (or frameset); everything else is below these.", "quantifier": "every text, every sequence of tokens", "why_tests_cant": "Texts of any length; foster parenting, adoption and fragments of foreign content move nodes about.", "anchors": ["include/wordring/whatwg/html/parsing/tree_construction_dispatcher.hpp: tree_construction_dispatcher", "include/wordring/html/simple_parser.hpp: parse"]}
{"id": "C108", "title": "Documents survive writing and reading", "statement": "Writing a document with to_string and parsing the text (up to the announced end) gives the document back, node for node, with all names, attributes and texts - for documents of HTML elements that are nested as the standard's content model has it, so that no tag is to be repaired: blocks, headings, lists, formatting, links, forms, tables, void elements, unknown elements, comments and a document type.", "quantifier": "every document with nodes nested as described, of any size and depth, with any texts and attribute values (no NUL, no CR), and any encoding unit the tree is held in", "why_tests_cant": "Trees of any depth; the writer, the tokenizer with its named references and 23 insertion modes meet, and each must undo what another does.", "anchors": ["include/wordring/whatwg/html/parsing/serializing.hpp: to_string", "include/wordring/whatwg/html/parsing/tokenization.hpp: html_tokenizer", "include/wordring/whatwg/html/parsing/tree_construction_dispatcher.hpp: tree_construction_dispatcher", "include/wordring/html/simple_parser.hpp: parse"]}
{"id": "C109", "title": "Foreign elements and attributes get their proper names", "statement": "Attributes of HTML elements have no prefix and no namespace; SVG elements and attributes that are written with capital letters in the standard get them.", "quantifier": "every text", "why_tests_cant": "The token's attributes are adjusted in place and used again; the names are in tables that no test covers in full.", "anchors": ["include/wordring/whatwg/html/parsing/tree_construction_dispatcher.hpp: adjust_svg_attributes, adjust_foreign_attributes, insert_foreign_element", "include/wordring/html/simple_parser.hpp: parse"]}
{"id": "C110", "title": "Every parsed text is a document", "statement": "If parsing a text gives a result, it is a finite tree whose root is the document node: only elements have children, no text node is empty, and the children of the document are comments, at most one document type, and behind that at most one element, which is an html element.", "quantifier": "every text, with or without the announcement of its end, for which parsing gives a result", "why_tests_cant": "Foster parenting, the adoption agency algorithm and reopened formatting elements move nodes through the tree in ways that depend on the whole text; a cycle, a text below a comment or a second root element would show only for some of them.", "anchors": ["include/wordring/whatwg/html/parsing/tree_construction_dispatcher.hpp: insert_foreign_element, insert_character, insert_comment, appropriate_place_for_inserting_node, run_adoption_agency_algorithm, reconstruct_formatting_element_list", "include/wordring/html/simple_parser.hpp: parse, move_node, insert_element, insert_text, insert_comment"]}
{"id": "C111", "title": "The encoding a meta element declares", "statement": "extract_character_encoding_from_meta_element returns the encoding whose label stands behind the first \"charset =\" of its argument (quoted, or up to a semicolon or white space), in any case and with white space around, and none if there is none; the parser takes charset first and the content of Content-Type otherwise.", "quantifier": "every string of scalar values, every list of attributes", "why_tests_cant": "The text has any number of words charset, quotes and white space in any order; the code searches again behind each one.", "anchors": ["include/wordring/whatwg/html/url.hpp:extract_character_encoding_from_meta_element", "include/wordring/whatwg/encoding/encoding.hpp:get_encoding_name", "include/wordring/whatwg/html/parsing/tree_construction_dispatcher.hpp: on_in_head_insertion_mode (meta)"]}
{"id": "C112", "title": "Parsing bytes gives the document of the text in the declared encoding", "statement": "Parsing a byte sequence ends and gives the document of the text that the bytes are in the encoding given to the parser, or, if that was tentative, in the encoding that the first declaration in the text says; the bytes of a UTF-8 text give the document of the text.", "quantifier": "every byte sequence, every encoding and every confidence", "why_tests_cant": "The parser decodes, parses and starts again in the middle of a text of any length; whether it ever stops starting again and which encoding it ends with depends on the text under both encodings.", "anchors": ["include/wordring/html/simple_parser.hpp: parse, clear, on_change_encoding", "include/wordring/whatwg/html/parsing/tree_construction_dispatcher.hpp: change_encoding, clear", "include/wordring/whatwg/encoding/api.hpp:text_decoder"]}
{"id": "C113", "title": "A URL that is written and read again is the same URL", "statement": "Every URL a program can come by (parsed, with or without a base, in any encoding but ISO-2022-JP, then changed by any setters) has a text, and constructing a URL from that text gives the same scheme, credentials, host, port, path, query and fragment. (Proved for every http, https, ws, wss and ftp URL whose host is not an IPv6 address with more than two runs of zeros, and for the other URLs that lose nothing in their text; the cases that lose something are listed and shown by witnesses.)", "quantifier": "all URLs that parsing and setters lead to, in any order and number, and any domain_to_ascii that is stable on its results", "why_tests_cant": "URLs and sequences of calls are unbounded; tests compare a few texts with expected ones", "anchors": ["include/wordring/whatwg/url/api.hpp: basic_url", "lib/whatwg/url/url.cpp: basic_url_parser, serialize_url"]}
{"id": "C114", "title": "A setter leaves the other parts of a URL alone", "statement": "Calling protocol, username, password, host, hostname, port, pathname, search or hash with any string changes no part of the URL but the one it is named after (host is host name and port; a new protocol may drop the port).", "quantifier": "every URL record, every string, every setter", "why_tests_cant": "Each setter runs the whole URL parser from some state; a delimiter anywhere in the string could carry it over into the next part.", "anchors": ["include/wordring/whatwg/url/api.hpp: basic_url", "lib/whatwg/url/url.cpp: basic_url_parser"]}
{"id": "C115", "title": "What the setters of a URL store", "statement": "username and password store the string percent-encoded; search and hash store it percent-encoded without one leading mark, tabs and line breaks, and remove the part for an empty string; pathname stores the percent-encoded pieces between slashes with '.' and '..' carried out.", "quantifier": "every string of scalar values, every URL that can have the part", "why_tests_cant": "The strings are unbounded, and encoding, dots, slashes and drive letters meet in any order.", "anchors": ["include/wordring/whatwg/url/api.hpp: basic_url", "lib/whatwg/url/url.cpp: on_query_state, on_fragment_state, on_path_start_state, on_path_state, set_username, set_password"]}
{"id": "C116", "title": "The protocol setter", "statement": "protocol takes the text in front of the first colon. If it is a scheme in any case that the URL can take on (special for special, file only without credentials and port, nothing else for a file URL without host), the URL gets it in small letters and loses a port that is its default; if not, nothing changes.", "quantifier": "every URL a program can come by, every string", "why_tests_cant": "The conditions depend on the whole URL and the string is unbounded.", "anchors": ["include/wordring/whatwg/url/api.hpp: basic_url::protocol", "lib/whatwg/url/url.cpp: on_scheme_start_state, on_scheme_state"]}
{"id": "C117", "title": "The hostname setter", "statement": "hostname gives a URL the host that the host parser makes of the text up to a colon outside brackets or the beginning of a path, query or fragment. If the host parser fails, or the text is empty and the URL needs a host, nothing changes.", "quantifier": "every URL a program can come by, every string for which the host parser is defined", "why_tests_cant": "The string is unbounded; tests set a few host names on http URLs.", "anchors": ["include/wordring/whatwg/url/api.hpp: basic_url::hostname", "lib/whatwg/url/url.cpp: on_hostname_state, on_file_host_state"]}
{"id": "C118", "title": "The host setter", "statement": "host gives a URL the host that the host parser makes of the text up to a colon outside brackets or the beginning of a path, query or fragment, and, behind a colon, the port that the digits there make, up to 65535. If the host parser fails, or the text is empty and the URL needs a host, nothing changes.", "quantifier": "every URL a program can come by, every string for which the host parser is defined", "why_tests_cant": "The string is unbounded, and host, brackets, colon and port meet in it in any order; tests set a few hosts on http URLs.", "anchors": ["include/wordring/whatwg/url/api.hpp: basic_url::host", "lib/whatwg/url/url.cpp: on_hostname_state, on_port_state, on_file_host_state"]}
{"id": "C119", "title": "href is made of what the other getters give", "statement": "All getters are defined, and href is protocol, two slashes with username, password and host if there is a host, pathname (behind '/.' if it would be taken for a host), search and hash, where a '?' or '#' without text stays.", "quantifier": "every URL a program can come by, by parsing and any sequence of setters", "why_tests_cant": "Records are unbounded and come from any sequence of calls; href and the getters write the parts with separate code.", "anchors": ["include/wordring/whatwg/url/api.hpp: basic_url::href, protocol, username, password, host, hostname, port, pathname, search, hash", "lib/whatwg/url/url.cpp: serialize_url"]}
{"id": "C120", "title": "Setting a part of a URL to what it is changes nothing", "statement": "Calling a setter with the string that the getter of the same name returns leaves the URL as it is.", "quantifier": "every URL a program can come by, each of the nine setters", "why_tests_cant": "The getter writes a part with one piece of code and the setter reads it with the parser; whether the two fit depends on every character of every part.", "anchors": ["include/wordring/whatwg/url/api.hpp: basic_url", "lib/whatwg/url/url.cpp: basic_url_parser"]}
{"id": "C121", "title": "A set of atoms numbers its strings one to one", "statement": "A basic_atom_set holds the strings inserted and not erased since (never the empty one), in every order of insert, operator[], erase by string, erase by number and clear. The atom of a stored string converts to true, to the string and to a number other than 0; at with the number gives the atom back; different strings have different numbers. The atom of a string that is not stored is empty and has the number 0. insert and operator[] return the atom of the string.", "quantifier": "every history of calls, every width of characters, every string", "why_tests_cant": "The numbers are indices in an array that every insertion and erasure rearranges; tests look at five strings inserted at once.", "anchors": ["include/wordring/string/atom.hpp: basic_atom, basic_atom_set"]}
{"id": "C122", "title": "The atom of a number that no atom has", "statement": "basic_atom_set::at(id) gives the atom with this number, and the empty atom if there is none (as documented).", "quantifier": "every history of calls, every number", "why_tests_cant": "All numbers and all states of the array.", "anchors": ["include/wordring/string/atom.hpp: basic_atom_set::at"]}
{"id": "C123", "title": "Atoms and their numbers stay while other strings come and go", "statement": "The number of a stored string and its atom do not change as long as the string is not erased.", "quantifier": "every history of calls and every further call, every stored string", "why_tests_cant": "Which insertion moves which node depends on the whole history; the numbers are meant to be kept by the program.", "anchors": ["include/wordring/string/atom.hpp: basic_atom::operator std::uint32_t, basic_atom_set", "include/wordring/trie/stable_trie_base.hpp"]}
{"id": "C124", "title": "Decoding never runs into undefined behaviour", "statement": "Whatever the encoding, the bytes and the way they are cut into chunks, text_decoder ends with a text or, with fatal, with std::range_error; no assertion fails.", "quantifier": "all encodings a text_decoder can be constructed for, both error modes, all byte sequences, all ways of cutting them", "why_tests_cant": "the failing inputs are single byte sequences among infinitely many; that there are no others cannot be tested", "anchors": ["include/wordring/whatwg/encoding/api.hpp: basic_text_decoder::decode", "include/wordring/whatwg/encoding/coder.hpp: ISO_2022_JP_decoder::run, gb18030_decoder::run, get_index_gb18030_ranges_code_point"]}
{"id": "C125", "title": "Decoded text consists of scalar values", "statement": "Whatever the encoding, the bytes and the way they are cut into chunks, the text a text_decoder returns consists of Unicode scalar values: no surrogates, nothing above U+10FFFF.", "quantifier": "all encodings a text_decoder can be constructed for, both error modes, all byte sequences, all ways of cutting them", "why_tests_cant": "every state of every decoder and every entry of every table can contribute a code point", "anchors": ["include/wordring/whatwg/encoding/api.hpp: basic_text_decoder::decode", "include/wordring/whatwg/encoding/coder.hpp: decoders", "lib/whatwg/encoding/indexes_code_point.cpp"]}
{"id": "C126", "title": "A byte order mark overrides the encoding given to decode", "statement": "decode(in, name, out) decodes the bytes behind a UTF-8, UTF-16BE or UTF-16LE byte order mark in the encoding of the mark, and all bytes in the named encoding if there is none; the text is that of a text_decoder that ignores byte order marks. With fewer than three bytes and no end of the queue it waits and takes nothing.", "quantifier": "all byte sequences, all encodings named", "why_tests_cant": "the named decoder, the sniffed decoder and the text must agree for every byte sequence", "anchors": ["include/wordring/whatwg/encoding/encoding.hpp: decode, bom_sniff, process_queue", "include/wordring/whatwg/encoding/terminology.hpp: io_queue::peek, io_queue::read"]}
{"id": "C127", "title": "What a relative reference means beside a base URL", "statement": "Constructing a URL from a text without a scheme (or with the special scheme of the base) and without a host gives the base with the path, the query and the fragment replaced: the path of the text is resolved beside the last segment of the base or from the root (from the drive letter of a file URL), an empty path keeps the path and, without a query, the query of the base; the fragment is never that of the base. Beside a base that cannot be one only a fragment means something, and without a base nothing does: the constructor throws.", "quantifier": "all valid base URLs, all texts of scalar values", "why_tests_cant": "the result is composed of base and text in a way that depends on every character of both", "anchors": ["include/wordring/whatwg/url/api.hpp: basic_url", "include/wordring/whatwg/url/parsing.hpp: basic_url_parser::on_no_scheme_state, on_relative_state, on_relative_slash_state, on_file_state, on_file_slash_state, on_path_state"]}
{"id": "C128", "title": "An absolute text means the same beside every base", "statement": "Constructing a URL from a text with a scheme gives the same URL, or the same exception, with a base as without one, unless the scheme is special, that of the base, and not in front of two slashes. In particular the text of a URL gives this URL beside every base.", "quantifier": "all bases, all texts of scalar values with a scheme", "why_tests_cant": "a wrong use of the base shows only for particular pairs of texts and bases", "anchors": ["include/wordring/whatwg/url/api.hpp: basic_url", "include/wordring/whatwg/url/parsing.hpp: basic_url_parser::on_scheme_state, on_special_relative_or_authority_state, on_special_authority_slashes_state, on_file_state"]}
{"id": "C129", "title": "A reference with a host takes only the scheme of the base", "statement": "Constructing a URL from a text without a scheme that begins with two slashes gives the URL that the text gives behind the scheme of the base and a colon, without a base: user, password, port, path and query of the base do not get into it.", "quantifier": "all valid base URLs that can be a base, all texts of scalar values", "why_tests_cant": "a part of the base that is left in the URL shows only for bases with such a part", "anchors": ["include/wordring/whatwg/url/api.hpp: basic_url", "include/wordring/whatwg/url/parsing.hpp: basic_url_parser::on_no_scheme_state, on_relative_state, on_relative_slash_state, on_file_slash_state"]}
{"id": "C130", "title": "A parsed document has only the elements and attributes of the text", "statement": "Each element of a parsed document has the name of a start tag of the text, or one of the names that the standard supplies (html, head, body, p, colgroup, tbody, tr, br, and img for image); each attribute has the name (up to the adjustments of foreign content) and the value of an attribute of a start tag. So a text without a start tag of script, as the tokenizer finds tags, gives no script element.", "quantifier": "every text, every table of character references, with and without the end announced", "why_tests_cant": "an element that is duplicated, reopened or supplied by mistake shows only for particular misnestings of tags", "anchors": ["include/wordring/html/simple_parser.hpp: simple_parser::parse", "include/wordring/whatwg/html/parsing/tree_construction_dispatcher.hpp: tree_construction_dispatcher", "include/wordring/whatwg/html/parsing/token.hpp: token_attribute, token_attribute_list"]}
{"id": "C131", "title": "What Shift_JIS, EUC-KR, EUC-JP and Big5 decoders make of arbitrary bytes", "statement": "Decoding any byte sequence as Shift_JIS, EUC-KR, EUC-JP or Big5 ends, and gives the code points that the byte sequence says, read from the left: single bytes, pairs and triples at their cells of the index, half-width katakana, and the user-defined rows F0 to F9 of Shift_JIS from U+E000. A sequence that is no character is one error and takes its bytes, except an ASCII byte at its end, which is read again; an unfinished sequence at the end is one error. In mode fatal decoding stops at the first error, with the code points in front of it, and otherwise no error hides a character.", "quantifier": "all byte sequences", "why_tests_cant": "byte sequences with errors at particular places, and 256 times 256 pairs in every context, cannot be enumerated together", "anchors": ["include/wordring/whatwg/encoding/coder.hpp: Shift_JIS_decoder, EUC_KR_decoder, EUC_JP_decoder, Big5_decoder", "include/wordring/whatwg/encoding/encoding.hpp: process_queue, process_item"]}
{"id": "C132", "title": "What the gb18030 and GBK decoder makes of arbitrary bytes", "statement": "Decoding any byte sequence as gb18030 or GBK ends and gives the code points that the byte sequence says, read from the left: single bytes, pairs at their cells of the index, and four-byte sequences by the index of ranges. A four-byte sequence that breaks off is one error that takes only its first byte, two bytes that stand for nothing are one error that takes both unless the second is ASCII, and what is cut off by the end is one error. In mode fatal decoding stops at the first error, with the code points in front of it.", "quantifier": "all byte sequences", "why_tests_cant": "how errors and put-back bytes combine depends on up to four bytes in every context", "anchors": ["include/wordring/whatwg/encoding/coder.hpp: gb18030_decoder::run, get_index_gb18030_ranges_code_point", "include/wordring/whatwg/encoding/encoding.hpp: process_queue, process_item"]}
