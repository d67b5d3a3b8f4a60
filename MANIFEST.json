{
 "claims": [
  {
   "property": "C22",
   "status": "proved",
   "theorems": [
    "Verif.Props.Serialize.C22_serialize_big_endian",
    "Verif.Props.Serialize.C22_deserialize_big_endian",
    "Verif.Props.Serialize.C22_round_trip",
    "Verif.Props.Serialize.C22_round_trip_signed",
    "Verif.Props.Serialize.C22_iterators",
    "Verif.Props.Serialize.C22_order",
    "Verif.Props.Serialize.C22_byte_overload",
    "Verif.Props.Serialize.C22_truncated_is_error"
   ],
   "note": ""
  },
  {
   "property": "C24",
   "status": "proved",
   "theorems": [
    "Verif.Props.Unicode.C24_utf8_round_trip",
    "Verif.Props.Unicode.C24_utf8_injective"
   ],
   "note": ""
  },
  {
   "property": "C25",
   "status": "proved",
   "theorems": [
    "Verif.Props.Unicode.C25_utf16_round_trip"
   ],
   "note": ""
  },
  {
   "property": "C26",
   "status": "proved",
   "theorems": [
    "Verif.Props.Unicode.C26_encoding_cast",
    "Verif.Props.Unicode.C26_encoding_cast_round_trip",
    "Verif.Props.Unicode.C26_unpaired_surrogate_is_ub"
   ],
   "note": ""
  },
  {
   "property": "C27",
   "status": "partial",
   "theorems": [
    "Verif.Props.Infra.C27_normalize_newlines_exact",
    "Verif.Props.Infra.C27_normalize_newlines_partial",
    "Verif.Props.Infra.C27_trailing_cr_lost",
    "Verif.Props.Infra.C27_utf8_truncated",
    "Verif.Props.Infra.C27_statement_false",
    "Verif.Props.Infra.C27_strip_newlines"
   ],
   "note": "False in general: a trailing CR is dropped and code points are copied into the output unit type without encoding; proved for inputs not ending in CR whose code points fit one unit, and the exact behaviour for all inputs."
  },
  {
   "property": "C28",
   "status": "partial",
   "theorems": [
    "Verif.Props.Infra.C28_strip_partial",
    "Verif.Props.Infra.C28_trim_unique",
    "Verif.Props.Infra.C28_all_whitespace_ub",
    "Verif.Props.Infra.C28_statement_false"
   ],
   "note": "False for non-empty all-whitespace input (undefined behaviour); proved for all others."
  },
  {
   "property": "C29",
   "status": "proved",
   "theorems": [
    "Verif.Props.Infra.C29_strip_and_collapse"
   ],
   "note": ""
  },
  {
   "property": "C30",
   "status": "partial",
   "theorems": [
    "Verif.Props.Infra.C30_fields_spec",
    "Verif.Props.Infra.C30_strictly_split_partial",
    "Verif.Props.Infra.C30_multi_unit_delimiter_ub",
    "Verif.Props.Infra.C30_statement_false"
   ],
   "note": "False for delimiters needing more than one code unit."
  },
  {
   "property": "C31",
   "status": "partial",
   "theorems": [
    "Verif.Props.Infra.C31_split_on_whitespace",
    "Verif.Props.Infra.C31_split_on_commas_partial",
    "Verif.Props.Infra.C31_whitespace_piece_ub",
    "Verif.Props.Infra.C31_commas_statement_false"
   ],
   "note": "split_on_ascii_whitespace proved; split_on_commas runs past the end on an all-whitespace piece."
  },
  {
   "property": "C32",
   "status": "proved",
   "theorems": [
    "Verif.Props.Infra.C32_lowercase",
    "Verif.Props.Infra.C32_uppercase",
    "Verif.Props.Infra.C32_case_maps",
    "Verif.Props.Infra.C32_case_insensitive_match",
    "Verif.Props.Infra.C32_byte_match"
   ],
   "note": ""
  },
  {
   "property": "C54",
   "status": "partial",
   "theorems": [
    "Verif.Props.Infra.C54_noncharacter",
    "Verif.Props.Infra.C54_scalar_partial",
    "Verif.Props.Infra.C54_scalar_statement_false"
   ],
   "note": "is_noncharacter proved; is_scalar_value has no upper bound."
  },
  {
   "property": "C20",
   "status": "proved",
   "theorems": [
    "Verif.Props.StaticVector.C20_step",
    "Verif.Props.StaticVector.C20_history"
   ],
   "note": "Inserted values are not elements of the vector itself (see C55); an empty erase range at end() is outside the code's contract."
  },
  {
   "property": "C21",
   "status": "partial",
   "theorems": [
    "Verif.Props.StaticVector.C21_at_partial",
    "Verif.Props.StaticVector.C21_at_misses_bound",
    "Verif.Props.StaticVector.C21_statement_false"
   ],
   "note": "False: at() checks the capacity, not the size."
  },
  {
   "property": "C55",
   "status": "partial",
   "theorems": [
    "Verif.Props.StaticVector.C55_insert_self_partial",
    "Verif.Props.StaticVector.C55_statement_false"
   ],
   "note": "False for elements at or behind the insertion point."
  },
  {
   "property": "C56",
   "status": "partial",
   "theorems": [
    "Verif.Props.StaticVector.C56_iterator_advance_partial",
    "Verif.Props.StaticVector.C56_full_vector_asserts",
    "Verif.Props.StaticVector.C56_statement_false"
   ],
   "note": "False for full vectors: the assertion rejects end()."
  },
  {
   "property": "C23",
   "status": "proved",
   "theorems": [
    "Verif.Props.Matcher.C23_answers",
    "Verif.Props.Matcher.C23_no_ub",
    "Verif.Props.Matcher.C23_clear"
   ],
   "note": ""
  },
  {
   "property": "C53",
   "status": "proved",
   "theorems": [
    "Verif.Props.HtmlInput.C53_newlines",
    "Verif.Props.HtmlInput.C53_no_cr_left"
   ],
   "note": ""
  },
  {
   "property": "C57",
   "status": "proved",
   "theorems": [
    "Verif.Props.HtmlInput.C57_errors"
   ],
   "note": ""
  },
  {
   "property": "C58",
   "status": "proved",
   "theorems": [
    "Verif.Props.HtmlInput.C58_reconsume",
    "Verif.Props.HtmlInput.C58_consume_n",
    "Verif.Props.HtmlInput.C58_consume_empty_ub",
    "Verif.Props.HtmlInput.C58_match",
    "Verif.Props.HtmlInput.C58_match_empty_ub"
   ],
   "note": ""
  },
  {
   "property": "C59",
   "status": "partial",
   "theorems": [
    "Verif.Props.HtmlInput.C59_fill_partial",
    "Verif.Props.HtmlInput.C59_more_is_refused",
    "Verif.Props.HtmlInput.C59_statement_false"
   ],
   "note": "False when more than n code points are buffered."
  },
  {
   "property": "C50",
   "status": "proved",
   "theorems": [
    "Verif.Props.CssInput.C50_filter",
    "Verif.Props.CssInput.C50_clean",
    "Verif.Props.CssInput.C50_idempotent"
   ],
   "note": ""
  },
  {
   "property": "C60",
   "status": "partial",
   "theorems": [
    "Verif.Props.CssInput.C60_fallback_partial",
    "Verif.Props.CssInput.C60_charset_rule",
    "Verif.Props.CssInput.C60_utf16_kept",
    "Verif.Props.CssInput.C60_statement_false"
   ],
   "note": "False: UTF-16 labels are not replaced by UTF-8."
  },
  {
   "property": "C01",
   "status": "proved",
   "theorems": [
    "Verif.Props.Trie.C01_set",
    "Verif.Props.Trie.C01_spec"
   ],
   "note": ""
  },
  {
   "property": "C02",
   "status": "partial",
   "theorems": [
    "Verif.Props.Trie.C02_partial",
    "Verif.Props.Trie.C02_exact",
    "Verif.Props.Trie.C02_statement_false",
    "Verif.Props.Trie.C02_insert"
   ],
   "note": "False: erasing the only proper extension of a stored key resets that key's value to 0; exact behaviour proved for all histories, the property for histories without such an erase."
  },
  {
   "property": "C03",
   "status": "proved",
   "theorems": [
    "Verif.Props.Trie.C03_base",
    "Verif.Props.Trie.C03_stable",
    "Verif.Props.TrieIter.C03_iterators"
   ],
   "note": "insert, erase, value writes, all queries and iterators."
  },
  {
   "property": "C04",
   "status": "proved",
   "theorems": [
    "Verif.Props.Trie.C04_lookup"
   ],
   "note": ""
  },
  {
   "property": "C07",
   "status": "proved",
   "theorems": [
    "Verif.Props.Trie.C07_map"
   ],
   "note": ""
  },
  {
   "property": "C08",
   "status": "partial",
   "theorems": [
    "Verif.Props.Trie.C08_partial",
    "Verif.Props.Trie.C08_statement_false"
   ],
   "note": "False: inserting \"a\", \"b\", \"ab\" moves the terminator of \"a\"; proved for all operations that do not insert an extension of the key."
  },
  {
   "property": "C61",
   "status": "partial",
   "theorems": [
    "Verif.Props.Trie.C61_partial",
    "Verif.Props.Trie.C61_statement_false"
   ],
   "note": "False for the empty key, which overwrites the size counter; proved for all other keys."
  },
  {
   "property": "C09",
   "status": "proved",
   "theorems": [
    "Verif.Props.TrieWide.C09_set",
    "Verif.Props.TrieWide.C09_values",
    "Verif.Props.TrieWide.C09_stable",
    "Verif.Props.TrieWide.C09_lookup",
    "Verif.Props.TrieWide.C09_bytes"
   ],
   "note": "C09_values states the value rule of C02 (exact behaviour, including the reset on erase)."
  },
  {
   "property": "C62",
   "status": "partial",
   "theorems": [
    "Verif.Props.TrieWide.C62_exact",
    "Verif.Props.TrieWide.C62_partial",
    "Verif.Props.TrieWide.C62_statement_false"
   ],
   "note": "False: assign does not clear; proved for an empty trie, exact (merging) behaviour proved for all."
  },
  {
   "property": "C63",
   "status": "proved",
   "theorems": [
    "Verif.Props.TrieIter.C63_iterate",
    "Verif.Props.TrieIter.C63_stable"
   ],
   "note": ""
  },
  {
   "property": "C64",
   "status": "partial",
   "theorems": [
    "Verif.Props.TrieIter.C64_partial",
    "Verif.Props.TrieIter.C64_statement_false"
   ],
   "note": "False for wide labels: the bound check of the byte iterator is missing and the read leaves the array; right whenever defined, and always defined for byte labels."
  },
  {
   "property": "C06",
   "status": "partial",
   "theorems": [
    "Verif.Props.TrieIO.C06_partial",
    "Verif.Props.TrieIO.C06_stable_partial",
    "Verif.Props.TrieIO.C06_exact",
    "Verif.Props.TrieIO.C06_overread",
    "Verif.Props.TrieIO.C06_statement_false"
   ],
   "note": "False when anything follows in the stream: the byte count is taken for a node count; exact behaviour proved, and the round trip (with all later behaviour) for a trie at the end of the stream."
  },
  {
   "property": "C65",
   "status": "partial",
   "theorems": [
    "Verif.Props.TrieIO.C65_partial",
    "Verif.Props.TrieIO.C65_statement_false"
   ],
   "note": "False for 16-bit units, which are shifted by 8; proved for 8 and 32 bits."
  },
  {
   "property": "C05",
   "status": "partial",
   "theorems": [
    "Verif.Props.TrieBulk.C05_partial",
    "Verif.Props.TrieBulk.C05_exact",
    "Verif.Props.TrieBulk.C05_spec",
    "Verif.Props.TrieBulk.C05_statement_false",
    "Verif.Props.TrieBulk.C05_later_ub"
   ],
   "note": "False for sorted lists with the empty string, which is counted (and leads to undefined behaviour later); proved for all other lists."
  },
  {
   "property": "C10",
   "status": "proved",
   "theorems": [
    "Verif.Props.Tree.C10"
   ],
   "note": "insert, erase, clear and (acyclic) move in the history; begin/end/++/*/parent/size/empty observed at every level."
  },
  {
   "property": "C11",
   "status": "proved",
   "theorems": [
    "Verif.Props.Tree.C11"
   ],
   "note": "Also: the storage is exactly one longer than the largest number of nodes since the last clear()."
  },
  {
   "property": "C12",
   "status": "partial",
   "theorems": [
    "Verif.Props.Tree.C12_partial",
    "Verif.Props.Tree.C12_cycle",
    "Verif.Props.Tree.C12_statement_false"
   ],
   "note": "False for the end() position below the moved node: no exception, the subtree becomes its own child and is lost; proved for all other positions."
  },
  {
   "property": "C13",
   "status": "partial",
   "theorems": [
    "Verif.Props.Tree.C13_partial",
    "Verif.Props.Tree.C13_other_partial",
    "Verif.Props.Tree.C13_wrong_shape",
    "Verif.Props.Tree.C13_self_diverges",
    "Verif.Props.Tree.C13_statement_false"
   ],
   "note": "False when the traversal climbs more than one level at once (wrong shape) and when the target lies in the source (endless loop); proved for all other subtrees, from the same and from another tree."
  },
  {
   "property": "C14",
   "status": "proved",
   "theorems": [
    "Verif.Props.Tree.C14"
   ],
   "note": ""
  },
  {
   "property": "C15",
   "status": "proved",
   "theorems": [
    "Verif.Props.Tree.C15"
   ],
   "note": ""
  },
  {
   "property": "C16",
   "status": "partial",
   "theorems": [
    "Verif.Props.Tree.C16_partial",
    "Verif.Props.Tree.C16_roots",
    "Verif.Props.Tree.C16_statement_false"
   ],
   "note": "False among the roots: --end() gives the first root, and the assertion rejects every root; proved below the roots."
  },
  {
   "property": "C66",
   "status": "partial",
   "theorems": [
    "Verif.Props.Tree.C66_partial",
    "Verif.Props.Tree.C66_back",
    "Verif.Props.Tree.C66_statement_false"
   ],
   "note": "False: back() returns front(); proved for front() and for one root."
  },
  {
   "property": "C17",
   "status": "proved",
   "theorems": [
    "Verif.Props.TagTree.C17"
   ],
   "note": "Also backwards, and with clear() and move() in the history."
  },
  {
   "property": "C18",
   "status": "proved",
   "theorems": [
    "Verif.Props.TagTree.C18",
    "Verif.Props.TagTree.C18_single_end"
   ],
   "note": "Positions are never inside nodes without end tag; for those, end() is the end of the whole forest (C18_single_end)."
  },
  {
   "property": "C19",
   "status": "partial",
   "theorems": [
    "Verif.Props.TagTree.C19_partial",
    "Verif.Props.TagTree.C19_loses",
    "Verif.Props.TagTree.C19_statement_false"
   ],
   "note": "False for the place where the subtree already is: the subtree is lost; proved for all other positions."
  },
  {
   "property": "C67",
   "status": "partial",
   "theorems": [
    "Verif.Props.TagTree.C67_partial",
    "Verif.Props.TagTree.C67_empty",
    "Verif.Props.TagTree.C67_statement_false"
   ],
   "note": "False for empty text nodes, which yield a zero character; proved without them, exact behaviour of ++ proved for all."
  },
  {
   "property": "C33",
   "status": "proved",
   "theorems": [
    "Verif.Props.Utf.C33_encode",
    "Verif.Props.Utf.C33_roundtrip"
   ],
   "note": "utf8_decode additionally drops one leading U+FEFF, as the standard says."
  },
  {
   "property": "C34",
   "status": "proved",
   "theorems": [
    "Verif.Props.Utf.C34_decode",
    "Verif.Props.Utf.C34_or_fail",
    "Verif.Props.Utf.C34_bom"
   ],
   "note": "Errors are the maximal subparts of the Unicode standard."
  },
  {
   "property": "C35",
   "status": "partial",
   "theorems": [
    "Verif.Props.Utf.C35_partial",
    "Verif.Props.Utf.C35_dropped",
    "Verif.Props.Utf.C35_if_decoder",
    "Verif.Props.Utf.C35_statement_false"
   ],
   "note": "False: errors leave no trace in the output, because the coder is a variant and never recognised as a decoder. Proved: everything but the errors comes out, and with the recognition repaired there is one U+FFFD per error."
  },
  {
   "property": "C37",
   "status": "partial",
   "theorems": [
    "Verif.Props.Utf.C37_roundtrip",
    "Verif.Props.Utf.C37_partial",
    "Verif.Props.Utf.C37_actual",
    "Verif.Props.Utf.C37_statement_false"
   ],
   "note": "The round trip is proved. Recovery is false: the code unit behind an unpaired lead surrogate loses its high byte; exact behaviour proved."
  },
  {
   "property": "C38",
   "status": "partial",
   "theorems": [
    "Verif.Props.Legacy.C38_partial",
    "Verif.Props.Legacy.C38_big5_rejects",
    "Verif.Props.Legacy.C38_statement_false"
   ],
   "note": "False for Big5, whose decoder rejects every trail byte above 7E. Proved for whole strings, leaving out those Big5 characters, yen/overline/minus in EUC-JP and Shift_JIS (mapped to others by the standard) and U+10000 in gb18030."
  },
  {
   "property": "C39",
   "status": "partial",
   "theorems": [
    "Verif.Props.Legacy.C39_partial",
    "Verif.Props.Legacy.C39_diverges",
    "Verif.Props.Legacy.C39_statement_false"
   ],
   "note": "False: a code point JIS X 0208 lacks makes the encoder write escape sequences for ever. Proved for text the encoding has (at most 11 bytes per code point)."
  },
  {
   "property": "C40",
   "status": "partial",
   "theorems": [
    "Verif.Props.Legacy.C40_partial",
    "Verif.Props.Legacy.C40_beyond",
    "Verif.Props.Legacy.C40_first_supplementary",
    "Verif.Props.Legacy.C40_statement_false"
   ],
   "note": "False: U+10000 gets wrong bytes, and every later code point fails an assertion. Proved below U+10000."
  },
  {
   "property": "C68",
   "status": "proved",
   "theorems": [
    "Verif.Props.Legacy.C68_single_byte"
   ],
   "note": ""
  },
  {
   "property": "C69",
   "status": "proved",
   "theorems": [
    "Verif.Props.Legacy.C69_iso_2022_jp"
   ],
   "note": ""
  },
  {
   "property": "C70",
   "status": "proved",
   "theorems": [
    "Verif.Props.Legacy.C70_euc_kr"
   ],
   "note": ""
  },
  {
   "property": "C36",
   "status": "proved",
   "theorems": [
    "Verif.Props.TextDecoder.C36"
   ],
   "note": ""
  },
  {
   "property": "C71",
   "status": "proved",
   "theorems": [
    "Verif.Props.TextDecoder.C71_utf8"
   ],
   "note": ""
  },
  {
   "property": "C41",
   "status": "partial",
   "theorems": [
    "Verif.Props.Labels.C41_partial",
    "Verif.Props.Labels.C41_statement_false",
    "Verif.Props.Labels.C41_wrong_label",
    "Verif.Props.Labels.C41_padding",
    "Verif.Props.Labels.C41_standard",
    "Verif.Props.Labels.C41_whitespace_ub"
   ],
   "note": "False for ISO-8859-15, whose label is given as iso-8859-14. Proved for the other 39 names; look-up is proved for every label except those of whitespace only, which run past the end."
  },
  {
   "property": "C42",
   "status": "proved",
   "theorems": [
    "Verif.Props.Percent.C42_sets",
    "Verif.Props.Percent.C42_form_set",
    "Verif.Props.Percent.C42_encode",
    "Verif.Props.Percent.C42_utf8",
    "Verif.Props.Percent.C42_decode",
    "Verif.Props.Percent.C42_string_decode",
    "Verif.Props.Percent.C42_bytes",
    "Verif.Props.Percent.C42_roundtrip",
    "Verif.Props.Percent.C42_form",
    "Verif.Props.Percent.C42_alphabet"
   ],
   "note": ""
  },
  {
   "property": "C72",
   "status": "proved",
   "theorems": [
    "Verif.Props.Percent.C72_unencodable",
    "Verif.Props.Percent.C72_iso_2022_jp_state"
   ],
   "note": "The state of the ISO-2022-JP encoder is lost at each error, so there the text behind it is damaged (witness)."
  },
  {
   "property": "C43",
   "status": "proved",
   "theorems": [
    "Verif.Props.Host.C43_roundtrip",
    "Verif.Props.Host.C43_text"
   ],
   "note": ""
  },
  {
   "property": "C44",
   "status": "partial",
   "theorems": [
    "Verif.Props.Host.C44_partial",
    "Verif.Props.Host.C44_statement_false",
    "Verif.Props.Host.C44_octal_eight",
    "Verif.Props.Host.C44_octal_stops",
    "Verif.Props.Host.C44_overflow"
   ],
   "note": "False: 8 passes as an octal digit and numbers over 32 bits read an uninitialised variable. Exact for all other strings."
  },
  {
   "property": "C45",
   "status": "partial",
   "theorems": [
    "Verif.Props.Host.C45_partial",
    "Verif.Props.Host.C45_statement_false",
    "Verif.Props.Host.C45_lost",
    "Verif.Props.Host.C45_damage"
   ],
   "note": "False with three or more runs of zeros: a piece between two runs may be dropped. Proved, with the canonical text, for at most two runs; in every case at most one piece is lost."
  },
  {
   "property": "C73",
   "status": "partial",
   "theorems": [
    "Verif.Props.Host.C73_partial",
    "Verif.Props.Host.C73_statement_false"
   ],
   "note": "False through C44. Proved for text whose parts C44_partial covers."
  },
  {
   "property": "C74",
   "status": "partial",
   "theorems": [
    "Verif.Props.Host.C74_partial",
    "Verif.Props.Host.C74_statement_false",
    "Verif.Props.Host.C74_embedded",
    "Verif.Props.Host.C74_sound",
    "Verif.Props.Host.C74_silent_failure"
   ],
   "note": "Undefined behaviour for every address with an embedded IPv4 address. Proved for all text without dots; whatever is accepted is right."
  },
  {
   "property": "C75",
   "status": "partial",
   "theorems": [
    "Verif.Props.Host.C75_clean",
    "Verif.Props.Host.C75_opaque",
    "Verif.Props.Host.C75_opaque_stable",
    "Verif.Props.Host.C75_domain",
    "Verif.Props.Host.C75_bracket",
    "Verif.Props.Host.C75_serialized"
   ],
   "note": "Cleanness is proved up to undefined behaviour of the address parsers (C44, C74); the text of an IPv6 host returns only within C45_partial; domain_to_ascii is a parameter, so the second parse of a domain is not covered."
  },
  {
   "property": "C76",
   "status": "partial",
   "theorems": [
    "Verif.Props.Host.C76_partial",
    "Verif.Props.Host.C76_statement_false",
    "Verif.Props.Host.C76_wrong"
   ],
   "note": "False: text that is not numeric reads an uninitialised variable or is accepted by its leading digits. Proved for text of digits and dots."
  },
  {
   "property": "C46",
   "status": "partial",
   "theorems": [
    "Verif.Props.Url.C46_partial",
    "Verif.Props.Url.C46_statement_false",
    "Verif.Props.Url.C46_diverges"
   ],
   "note": "False for ISO-2022-JP: a query with a character it lacks is encoded for ever. Proved for all other encodings, every base and every setter, within 48*length+149 iterations."
  },
  {
   "property": "C47",
   "status": "proved",
   "theorems": [
    "Verif.Props.Url.C47",
    "Verif.Props.Url.C47_ascii"
   ],
   "note": "domain_to_ascii is assumed not to return an empty domain without an error."
  },
  {
   "property": "C48",
   "status": "partial",
   "theorems": [
    "Verif.Props.Url.C48_partial",
    "Verif.Props.Url.C48_exact",
    "Verif.Props.Url.C48_statement_false",
    "Verif.Props.UrlGet.C48_strings"
   ],
   "note": "False: 65535 is rejected, and so are numbers of more than five digits with leading zeros. The exact behaviour of the port setter is proved."
  },
  {
   "property": "C49",
   "status": "proved",
   "theorems": [
    "Verif.Props.Url.C49",
    "Verif.Props.Url.C49_shape"
   ],
   "note": "domain_to_ascii is assumed not to return an empty domain without an error."
  },
  {
   "property": "C77",
   "status": "partial",
   "theorems": [
    "Verif.Props.Url.C77_partial",
    "Verif.Props.Url.C77_address",
    "Verif.Props.Url.C77_file",
    "Verif.Props.Url.C77_statement_false"
   ],
   "note": "False: comparing an address host with a string fails an assertion, so the username, password and port setters of http://1.2.3.4/ and parsing file://1.2.3.4/ are undefined. Proved: nothing else in the URL parser is, beyond the host parser itself (C44, C74)."
  },
  {
   "property": "C51",
   "status": "partial",
   "theorems": [
    "Verif.Props.CssTok.C51_partial",
    "Verif.Props.CssTok.C51_statement_false",
    "Verif.Props.CssTok.C51_stuck",
    "Verif.Props.CssTok.C51_past_end"
   ],
   "note": "False: ..5 never ends, a last # and a last url read at the end, and 4294967296 asserts. Proved with exactly these exceptions."
  },
  {
   "property": "C52",
   "status": "proved",
   "theorems": [
    "Verif.Props.CssTok.C52"
   ],
   "note": ""
  },
  {
   "property": "C78",
   "status": "partial",
   "theorems": [
    "Verif.Props.CssTok.C78_partial",
    "Verif.Props.CssTok.C78_names",
    "Verif.Props.CssTok.C78_statement_false"
   ],
   "note": "False for the identifiers --, -- and a digit, and url at the end of the text; the theorem is an equivalence. At-keywords and hashes are always read back."
  },
  {
   "property": "C79",
   "status": "proved",
   "theorems": [
    "Verif.Props.CssTok.C79"
   ],
   "note": ""
  },
  {
   "property": "C80",
   "status": "partial",
   "theorems": [
    "Verif.Props.CssTok.C80_partial",
    "Verif.Props.CssTok.C80_statement_false"
   ],
   "note": "False for digits of 2^32 and more, which fail an assertion. The value is exact over the parts; the rounding of double is not modelled."
  },
  {
   "property": "C81",
   "status": "partial",
   "theorems": [
    "Verif.Props.CssTok.C81_partial",
    "Verif.Props.CssTok.C81_departures",
    "Verif.Props.CssTok.C81_signs",
    "Verif.Props.CssTok.C81_statement_false"
   ],
   "note": "False for seven kinds of text and for a reverse solidus at the end; proved for all others, token by token and as a whole."
  },
  {
   "property": "C82",
   "status": "partial",
   "theorems": [
    "Verif.Props.CssParse.C82_partial",
    "Verif.Props.CssParse.C82_statement_false"
   ],
   "note": "False: any closing token ends a simple block, so (a]b) ends at ]. Proved: the library returns for every list and follows the standard but for that, and gives the standard's result if brackets nest, for tokens only then."
  },
  {
   "property": "C83",
   "status": "proved",
   "theorems": [
    "Verif.Props.CssParse.C83"
   ],
   "note": ""
  },
  {
   "property": "C84",
   "status": "partial",
   "theorems": [
    "Verif.Props.CssParse.C84_partial",
    "Verif.Props.CssParse.C84_statement_false"
   ],
   "note": "False: an empty value, the value important and a value that ends in an open block are undefined, and without a name an empty declaration is returned. Proved with exactly these exceptions, and to be the standard's result if brackets nest."
  },
  {
   "property": "C85",
   "status": "partial",
   "theorems": [
    "Verif.Props.CssParse.C85_partial",
    "Verif.Props.CssParse.C85_statement_false"
   ],
   "note": "False for the same declarations as C84. Proved: undefined exactly then, else the standard's result if brackets nest."
  },
  {
   "property": "C86",
   "status": "partial",
   "theorems": [
    "Verif.Props.CssParse.C86_partial",
    "Verif.Props.CssParse.C86_statement_false"
   ],
   "note": "False: a value or rule that is still open at the end runs into an assertion. Proved: undefined exactly then, else the standard's result if brackets nest."
  },
  {
   "property": "C87",
   "status": "proved",
   "theorems": [
    "Verif.Props.CssParse.C87"
   ],
   "note": ""
  },
  {
   "property": "C88",
   "status": "partial",
   "theorems": [
    "Verif.Props.CssParse.C88_partial",
    "Verif.Props.CssParse.C88_statement_false"
   ],
   "note": "False for mismatched brackets as C82. Proved: the library returns for every list and gives the standard's result if brackets nest."
  },
  {
   "property": "C89",
   "status": "partial",
   "theorems": [
    "Verif.Props.CssParse.C89_partial",
    "Verif.Props.CssParse.C89_inner",
    "Verif.Props.CssParse.C89_statement_false"
   ],
   "note": "False: parse_list_of_rules takes the list for a top-level one and drops <!-- and -->, and consume_list_of_rules below the top level asserts at each. Proved to give the standard's result without these and if brackets nest."
  },
  {
   "property": "C90",
   "status": "proved",
   "theorems": [
    "Verif.Props.HtmlAtom.C90_string"
   ],
   "note": ""
  },
  {
   "property": "C91",
   "status": "proved",
   "theorems": [
    "Verif.Props.HtmlAtom.C91_name",
    "Verif.Props.HtmlAtom.C91_only"
   ],
   "note": ""
  },
  {
   "property": "C92",
   "status": "proved",
   "theorems": [
    "Verif.Props.HtmlAtom.C92_eq",
    "Verif.Props.HtmlAtom.C92_mixed",
    "Verif.Props.HtmlAtom.C92_same_name"
   ],
   "note": ""
  },
  {
   "property": "C93",
   "status": "partial",
   "theorems": [
    "Verif.Props.HtmlSerial.C93_partial",
    "Verif.Props.HtmlSerial.C93_statement_false",
    "Verif.Props.HtmlSerial.C93_fragment_text",
    "Verif.Props.HtmlSerial.C93_prefix_lost"
   ],
   "note": "False: children of void elements are written, prefixes of attributes in unknown namespaces are not, and a text below a root that is no element fails an assertion. Proved for all other trees."
  },
  {
   "property": "C94",
   "status": "proved",
   "theorems": [
    "Verif.Props.HtmlSerial.C94_escape",
    "Verif.Props.HtmlSerial.C94_decode"
   ],
   "note": ""
  },
  {
   "property": "C95",
   "status": "proved",
   "theorems": [
    "Verif.Props.HtmlSerial.C95_injective"
   ],
   "note": ""
  },
  {
   "property": "C96",
   "status": "proved",
   "theorems": [
    "Verif.Props.HtmlTok.C96_total"
   ],
   "note": "Relative to a look up of character references that is defined (parameter)."
  },
  {
   "property": "C97",
   "status": "partial",
   "theorems": [
    "Verif.Props.HtmlTok.C97_partial",
    "Verif.Props.HtmlTok.C97_prefix_partial",
    "Verif.Props.HtmlTok.C97_statement_false",
    "Verif.Props.HtmlTok.C97_numeric",
    "Verif.Props.HtmlTok.C97_numeric2",
    "Verif.Props.HtmlTok.C97_wrap",
    "Verif.Props.HtmlTok.C97_script",
    "Verif.Props.HtmlTok.C97_comment",
    "Verif.Props.HtmlTok.C97_cdata_html",
    "Verif.Props.HtmlTok.C97_cdata_foreign",
    "Verif.Props.HtmlTok.C97_return"
   ],
   "note": "False: a numeric reference loses the end-of-file token (and the characters before it), references of 2^32 and more wrap, a name other than script behind <!--< in a script emits the start tag again and the script never ends, NUL in a comment becomes a character, CDATA is inverted, and a carriage return at the end gives two end-of-file tokens. Proved for all other texts; with numeric references, for what has been delivered."
  },
  {
   "property": "C98",
   "status": "proved",
   "theorems": [
    "Verif.Props.HtmlRoundTrip.C98_text"
   ],
   "note": "Relative to a look up of names that agrees with a table that has the five names (parameter)."
  },
  {
   "property": "C99",
   "status": "proved",
   "theorems": [
    "Verif.Props.HtmlRoundTrip.C99_tree"
   ],
   "note": "Relative to a look up of names that agrees with a table that has the five names (parameter)."
  },
  {
   "property": "C100",
   "status": "partial",
   "theorems": [
    "Verif.Props.NamedRef.C100_partial",
    "Verif.Props.NamedRef.C100_right_partial",
    "Verif.Props.NamedRef.C100_semicolon_partial",
    "Verif.Props.NamedRef.C100_behind",
    "Verif.Props.NamedRef.C100_tokenize",
    "Verif.Props.NamedRef.C100_statement_false"
   ],
   "note": "False: behind zwnj, zwj, zscr, Zscr and other beginnings of names with z the trie iterator reads behind the end of its table, e.g. for &zwnj<. Proved: whatever is found is the standard's longest name with its code points, for all texts; the look up is defined for all texts that do not begin with z or Z, and for all names that end in a semicolon."
  },
  {
   "property": "C101",
   "status": "partial",
   "theorems": [
    "Verif.Props.NamedRefTok.C101_partial",
    "Verif.Props.NamedRefTok.C101_tokens_partial",
    "Verif.Props.NamedRefTok.C101_text",
    "Verif.Props.NamedRefTok.C101_tree",
    "Verif.Props.NamedRefTok.C101_statement_false"
   ],
   "note": "False: see C100. Proved: defined for all texts in which no ampersand is followed by z or Z, except for whole names with semicolon; the standard's tokens if the references that are looked up are so and nothing that C97 is about is met; all escaped texts and plain trees are read back, without a parameter for the table."
  },
  {
   "property": "C102",
   "status": "partial",
   "theorems": [
    "Verif.Props.Selector.C102_partial",
    "Verif.Props.Selector.C102_text_partial",
    "Verif.Props.Selector.C102_statement_false",
    "Verif.Props.Selector.C102_leftover",
    "Verif.Props.Selector.C102_departures"
   ],
   "note": "False: white space in front makes parsing fail, so does *||; what is left behind a selector is ignored, so that p) and p > and p|b without a declaration are taken as p; #1a and [a=b c] are taken. Proved: every selector of the standard without these is parsed to what it says, for all lists; whatever is parsed is a selector of a slightly larger language at the beginning of the text; from texts through the tokenizer."
  },
  {
   "property": "C103",
   "status": "partial",
   "theorems": [
    "Verif.Props.Selector.C103_partial",
    "Verif.Props.Selector.C103_class",
    "Verif.Props.Selector.C103_star",
    "Verif.Props.Selector.C103_departures",
    "Verif.Props.Selector.C103_statement_false"
   ],
   "note": "False: outside quirks mode .foo matches every element whose class attribute is one word; * without prefix dereferences an empty optional; [a|=v] does not match v itself; [a^=''] matches. Proved: for all trees, nodes and selectors without these matching is defined and right, in all modes."
  },
  {
   "property": "C104",
   "status": "partial",
   "theorems": [
    "Verif.Props.Selector.C104_partial",
    "Verif.Props.Selector.C104_meaning_partial",
    "Verif.Props.Selector.C104_text_partial",
    "Verif.Props.Selector.C104_lost",
    "Verif.Props.Selector.C104_star",
    "Verif.Props.Selector.C104_statement_false"
   ],
   "note": "False: a query on a node that is not a document and is not in an HTML html element (as in XML documents) is undefined, query_selector is undefined if nothing is found, and C103. Proved: for all trees and nodes otherwise the result is the matching descendants in document order, each once; with clean selectors those that the standard names, from the text of the selector on."
  },
  {
   "property": "C105",
   "status": "partial",
   "theorems": [
    "Verif.Props.HtmlTree.C105_statement_false",
    "Verif.Props.HtmlTree.C105_button",
    "Verif.Props.HtmlTree.C105_breakout",
    "Verif.Props.HtmlTree.C105_table",
    "Verif.Props.HtmlTree.C105_adoption",
    "Verif.Props.HtmlTree.C105_twice",
    "Verif.Props.HtmlTree.C105_tokens_partial",
    "Verif.Props.HtmlTree.C105_partial",
    "Verif.Props.HtmlTree.C105_eof_partial"
   ],
   "note": "Proved for all texts without the start tags button, svg, math and template: nothing but the adoption agency algorithm can fail, and without formatting elements (a, b, i, ...) nothing can. Missing: template. Otherwise false: a button in a p empties the stack of open elements; leaving foreign content pops one element too many, so that the stack is emptied or not as the insertion mode expects; the adoption agency algorithm inserts at the iterator of an erased entry; a text that ends with a carriage return may announce its end twice, which empties the stack."
  },
  {
   "property": "C106",
   "status": "proved",
   "theorems": [
    "Verif.Props.HtmlTree.C106_tokens",
    "Verif.Props.HtmlTree.C106_text"
   ],
   "note": "From texts: relative to a look up of character references that is defined (parameter)."
  },
  {
   "property": "C107",
   "status": "partial",
   "theorems": [
    "Verif.Props.HtmlTree.C107_statement_false",
    "Verif.Props.HtmlTree.C107_statement_false_eof",
    "Verif.Props.HtmlTree.C107_empty",
    "Verif.Props.HtmlTree.C107_lost",
    "Verif.Props.HtmlTree.C107_reference",
    "Verif.Props.HtmlTree.C107_breakout",
    "Verif.Props.HtmlTree.C107_template",
    "Verif.Props.HtmlTree.C107_partial"
   ],
   "note": "False: parse never announces the end of the text, so that the empty text gives an empty document and characters in a table are lost; a paragraph that leaves foreign content and a cell in a template are put below html. Proved for all texts whose end reaches the tree construction and that have no start tag of button, svg, math or template; noframes elements behind a frameset stay in html, as in the standard."
  },
  {
   "property": "C109",
   "status": "partial",
   "theorems": [
    "Verif.Props.HtmlTree.C109_partial",
    "Verif.Props.HtmlTree.C109_statement_false",
    "Verif.Props.HtmlTree.C109_prefix",
    "Verif.Props.HtmlTree.C109_name",
    "Verif.Props.HtmlTree.C109_viewBox"
   ],
   "note": "False: the prefix of an adjusted attribute stays in the token and turns up at the next element; foreignObject, viewBox and others do not get their capital letters. Proved for all texts without start tags of svg and math."
  },
  {
   "property": "C108",
   "status": "proved",
   "theorems": [
    "Verif.Props.HtmlDoc.C108"
   ],
   "note": "With the library's own table of character references. The class leaves out elements with raw text, foreign elements, templates, select, textarea, button and pre; the end of the text is announced (push_eof), see C107."
  },
  {
   "property": "C110",
   "status": "proved",
   "theorems": [
    "Verif.Props.HtmlTree.C110"
   ],
   "note": "An invariant of the whole tree construction. That nothing of the tree is left out of the view on it is part of the theorem. Whether parsing gives a result is C105."
  },
  {
   "property": "C111",
   "status": "partial",
   "theorems": [
    "Verif.Props.Meta.C111_partial",
    "Verif.Props.Meta.C111_element_partial",
    "Verif.Props.Meta.C111_blank",
    "Verif.Props.Meta.C111_statement_false"
   ],
   "note": "False for a quoted label of white space only, where the code reads past a buffer (C28); proved for everything else, for single texts and whole elements."
  },
  {
   "property": "C112",
   "status": "partial",
   "theorems": [
    "Verif.Props.HtmlBytes.C112_partial",
    "Verif.Props.HtmlBytes.C112_ends",
    "Verif.Props.HtmlBytes.C112_utf8",
    "Verif.Props.HtmlBytes.C112_thrown",
    "Verif.Props.HtmlBytes.C112_replacement",
    "Verif.Props.HtmlBytes.C112_statement_false"
   ],
   "note": "False: a declared encoding that the decoder refuses (iso-2022-kr and the other labels of replacement) makes parse throw. Proved: parsing ends after at most two passes, and a document is the one of the chosen encoding. The look up of character references is a parameter."
  },
  {
   "property": "C113",
   "status": "partial",
   "theorems": [
    "Verif.Props.UrlText.C113_partial",
    "Verif.Props.UrlText.C113_special_partial",
    "Verif.Props.UrlText.C113_injective_partial",
    "Verif.Props.UrlText.C113_ascii_partial",
    "Verif.Props.UrlText.C113_lost",
    "Verif.Props.UrlText.C113_lost_by_setters",
    "Verif.Props.UrlText.C113_undefined",
    "Verif.Props.UrlText.C113_statement_false"
   ],
   "note": "False: a:/. and eight other cases, each with a witness, among them text whose reading fails an assertion. Proved for every record that is Readable, in particular every http, https, ws, wss and ftp URL without the IPv6 hosts of C45. domain_to_ascii is a parameter that is assumed to leave its own results and dotted addresses unchanged."
  },
  {
   "property": "C114",
   "status": "proved",
   "theorems": [
    "Verif.Props.UrlSet.C114"
   ],
   "note": "domain_to_ascii is a parameter."
  },
  {
   "property": "C115",
   "status": "proved",
   "theorems": [
    "Verif.Props.UrlSet.C115"
   ],
   "note": "The exact record behind each call; the number of iterations is bounded by some k."
  },
  {
   "property": "C116",
   "status": "proved",
   "theorems": [
    "Verif.Props.UrlSet.C116"
   ],
   "note": "For every valid record (C47); the exact record behind each call."
  },
  {
   "property": "C117",
   "status": "partial",
   "theorems": [
    "Verif.Props.UrlSet.C117_partial",
    "Verif.Props.UrlSet.C117_twice",
    "Verif.Props.UrlSet.C117_statement_false",
    "Verif.Props.UrlGet.C117_file"
   ],
   "note": "False of file URLs: the first character is taken twice (on_hostname_state has no else). Proved for all other URLs and every string for which the host parser is defined."
  },
  {
   "property": "C118",
   "status": "partial",
   "theorems": [
    "Verif.Props.UrlGet.C118_partial",
    "Verif.Props.UrlGet.C118_file",
    "Verif.Props.UrlGet.C118_twice",
    "Verif.Props.UrlGet.C118_port",
    "Verif.Props.UrlGet.C118_statement_false"
   ],
   "note": "False of file URLs (as C117) and of the port 65535 (as C48). Proved for all other URLs and every string for which the host parser is defined, with the ports that the code takes; the exact behaviour on file URLs is proved too."
  },
  {
   "property": "C119",
   "status": "proved",
   "theorems": [
    "Verif.Props.UrlGet.C119"
   ],
   "note": "For every record that parsing and setters lead to; domain_to_ascii is a parameter."
  },
  {
   "property": "C120",
   "status": "partial",
   "theorems": [
    "Verif.Props.UrlGet.C120_partial",
    "Verif.Props.UrlGet.C120_changed",
    "Verif.Props.UrlGet.C120_statement_false"
   ],
   "note": "False: six witnesses (an empty query or fragment, a URL without host, hosts of file URLs, IPv6 addresses of C45). Proved for all nine setters for the other URLs."
  },
  {
   "property": "C121",
   "status": "proved",
   "theorems": [
    "Verif.Props.Atom.C121_numbered",
    "Verif.Props.Atom.C121_result",
    "Verif.Props.Atom.C121_assign"
   ],
   "note": "For characters of any width and every history of calls; indices are unbounded."
  },
  {
   "property": "C122",
   "status": "partial",
   "theorems": [
    "Verif.Props.Atom.C122_partial",
    "Verif.Props.Atom.C122_zero",
    "Verif.Props.Atom.C122_statement_false"
   ],
   "note": "False: at fails an assertion (or reads outside of the array) for every number that no stored string has, 0 among them. Proved: it is defined just for the numbers of stored strings, and right there."
  },
  {
   "property": "C123",
   "status": "partial",
   "theorems": [
    "Verif.Props.Atom.C123_partial",
    "Verif.Props.Atom.C123_number",
    "Verif.Props.Atom.C123_atom",
    "Verif.Props.Atom.C123_statement_false"
   ],
   "note": "False: inserting a longer string can change the number of a stored string, and inserting a string with a common beginning can move the atom of a stored string, so that the old one becomes invalid. Proved: the number stays under every other call."
  },
  {
   "property": "C124",
   "status": "partial",
   "theorems": [
    "Verif.Props.DecodeAll.C124_partial",
    "Verif.Props.DecodeAll.C124_iso2022jp",
    "Verif.Props.DecodeAll.C124_gb18030",
    "Verif.Props.DecodeAll.C124_statement_false",
    "Verif.Props.Gb18030.C124_gb18030_exact"
   ],
   "note": "The statement is false: ISO-2022-JP bytes ending in ESC $ or ESC ( (exactly these, without fatal), and gb18030 or GBK bytes with a four-byte sequence above U+10000, fail an assertion. All other inputs end with a text or the exception. Which gb18030 and GBK bytes fail is exact, too: those that say a code point above U+10000 (with fatal: in front of the first error)."
  },
  {
   "property": "C125",
   "status": "proved",
   "theorems": [
    "Verif.Props.DecodeAll.C125"
   ],
   "note": "All encodings and chunks; the number of loop iterations is bounded by a sufficiently large number as in C36."
  },
  {
   "property": "C126",
   "status": "proved",
   "theorems": [
    "Verif.Props.DecodeAll.C126",
    "Verif.Props.DecodeAll.C126_sniffed",
    "Verif.Props.DecodeAll.C126_waits",
    "Verif.Props.DecodeAll.C126_replacement"
   ],
   "note": "With end-of-queue at the end of the input. For the encoding replacement the text is empty."
  },
  {
   "property": "C127",
   "status": "proved",
   "theorems": [
    "Verif.Props.UrlResolve.C127_reference",
    "Verif.Props.UrlResolve.C127_cannot",
    "Verif.Props.UrlResolve.C127_nothing"
   ],
   "note": "For every valid base (C47); the encoding is UTF-8, as in basic_url."
  },
  {
   "property": "C128",
   "status": "partial",
   "theorems": [
    "Verif.Props.UrlResolve.C128_absolute",
    "Verif.Props.UrlResolve.C128_text_partial"
   ],
   "note": "The first sentence is proved for all texts and bases. The second is proved for the URLs that are read from their text (C113); of the others it is false as C113 is."
  },
  {
   "property": "C129",
   "status": "proved",
   "theorems": [
    "Verif.Props.UrlResolve.C129_host"
   ],
   "note": "For every valid base that can be one; holds where the host parser is undefined, too."
  },
  {
   "property": "C130",
   "status": "proved",
   "theorems": [
    "Verif.Props.HtmlTree.C130",
    "Verif.Props.HtmlTree.C130_script"
   ],
   "note": "For every text; the tags are those that the tokenizer hands to the tree construction. Prefixes and namespaces of attributes are C109."
  },
  {
   "property": "C131",
   "status": "partial",
   "theorems": [
    "Verif.Props.Multibyte.C131_shift_jis",
    "Verif.Props.Multibyte.C131_euc_kr",
    "Verif.Props.Multibyte.C131_euc_jp",
    "Verif.Props.Multibyte.C131_big5_statement_false",
    "Verif.Props.Multibyte.C131_big5_partial",
    "Verif.Props.Multibyte.C131_big5"
   ],
   "note": "Proved for Shift_JIS, EUC-KR and EUC-JP. False for Big5, whose decoder rejects every trail byte above 7E: proved where no two bytes above 7F meet, and what it does instead (one error for each such pair) for all bytes."
  },
  {
   "property": "C132",
   "status": "partial",
   "theorems": [
    "Verif.Props.Gb18030.C132_statement_false",
    "Verif.Props.Gb18030.C132_partial",
    "Verif.Props.Gb18030.C132_fatal_partial"
   ],
   "note": "False for bytes that say a code point above U+10000, on which the decoder fails an assertion: exactly those. Proved for all other bytes, in both error modes."
  }
 ]
}