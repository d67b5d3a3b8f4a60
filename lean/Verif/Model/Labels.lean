import Verif.Model.Legacy
/-
Model of `get_encoding_name` (lib/whatwg/encoding/encoding.cpp) and `get_encoding_label`
(include/wordring/whatwg/encoding/encoding.hpp). Labels are lists of code points; each row carries its spelling.
-/
namespace Verif.Model.Labels
open Verif.Model.Infra Verif.Model.Unicode Verif.Model.Legacy

/-- `encoding_label_map` (encoding.cpp:10-276). -/
def labelMap : List (List Nat × Enc) := [
  ([0x75, 0x6E, 0x69, 0x63, 0x6F, 0x64, 0x65, 0x2D, 0x31, 0x2D, 0x31, 0x2D, 0x75, 0x74, 0x66, 0x2D, 0x38], .UTF_8) /- unicode-1-1-utf-8 -/,
  ([0x75, 0x74, 0x66, 0x2D, 0x38], .UTF_8) /- utf-8 -/,
  ([0x75, 0x74, 0x66, 0x38], .UTF_8) /- utf8 -/,
  ([0x38, 0x36, 0x36], .IBM866) /- 866 -/,
  ([0x63, 0x70, 0x38, 0x36, 0x36], .IBM866) /- cp866 -/,
  ([0x63, 0x73, 0x69, 0x62, 0x6D, 0x38, 0x36, 0x36], .IBM866) /- csibm866 -/,
  ([0x69, 0x62, 0x6D, 0x38, 0x36, 0x36], .IBM866) /- ibm866 -/,
  ([0x63, 0x73, 0x69, 0x73, 0x6F, 0x6C, 0x61, 0x74, 0x69, 0x6E, 0x32], .ISO_8859_2) /- csisolatin2 -/,
  ([0x69, 0x73, 0x6F, 0x2D, 0x38, 0x38, 0x35, 0x39, 0x2D, 0x32], .ISO_8859_2) /- iso-8859-2 -/,
  ([0x69, 0x73, 0x6F, 0x2D, 0x69, 0x72, 0x2D, 0x31, 0x30, 0x31], .ISO_8859_2) /- iso-ir-101 -/,
  ([0x69, 0x73, 0x6F, 0x38, 0x38, 0x35, 0x39, 0x2D, 0x32], .ISO_8859_2) /- iso8859-2 -/,
  ([0x69, 0x73, 0x6F, 0x38, 0x38, 0x35, 0x39, 0x32], .ISO_8859_2) /- iso88592 -/,
  ([0x69, 0x73, 0x6F, 0x5F, 0x38, 0x38, 0x35, 0x39, 0x2D, 0x32], .ISO_8859_2) /- iso_8859-2 -/,
  ([0x69, 0x73, 0x6F, 0x5F, 0x38, 0x38, 0x35, 0x39, 0x2D, 0x32, 0x3A, 0x31, 0x39, 0x38, 0x37], .ISO_8859_2) /- iso_8859-2:1987 -/,
  ([0x6C, 0x32], .ISO_8859_2) /- l2 -/,
  ([0x6C, 0x61, 0x74, 0x69, 0x6E, 0x32], .ISO_8859_2) /- latin2 -/,
  ([0x63, 0x73, 0x69, 0x73, 0x6F, 0x6C, 0x61, 0x74, 0x69, 0x6E, 0x33], .ISO_8859_3) /- csisolatin3 -/,
  ([0x69, 0x73, 0x6F, 0x2D, 0x38, 0x38, 0x35, 0x39, 0x2D, 0x33], .ISO_8859_3) /- iso-8859-3 -/,
  ([0x69, 0x73, 0x6F, 0x2D, 0x69, 0x72, 0x2D, 0x31, 0x30, 0x39], .ISO_8859_3) /- iso-ir-109 -/,
  ([0x69, 0x73, 0x6F, 0x38, 0x38, 0x35, 0x39, 0x2D, 0x33], .ISO_8859_3) /- iso8859-3 -/,
  ([0x69, 0x73, 0x6F, 0x38, 0x38, 0x35, 0x39, 0x33], .ISO_8859_3) /- iso88593 -/,
  ([0x69, 0x73, 0x6F, 0x5F, 0x38, 0x38, 0x35, 0x39, 0x2D, 0x33], .ISO_8859_3) /- iso_8859-3 -/,
  ([0x69, 0x73, 0x6F, 0x5F, 0x38, 0x38, 0x35, 0x39, 0x2D, 0x33, 0x3A, 0x31, 0x39, 0x38, 0x38], .ISO_8859_3) /- iso_8859-3:1988 -/,
  ([0x6C, 0x33], .ISO_8859_3) /- l3 -/,
  ([0x6C, 0x61, 0x74, 0x69, 0x6E, 0x33], .ISO_8859_3) /- latin3 -/,
  ([0x63, 0x73, 0x69, 0x73, 0x6F, 0x6C, 0x61, 0x74, 0x69, 0x6E, 0x34], .ISO_8859_4) /- csisolatin4 -/,
  ([0x69, 0x73, 0x6F, 0x2D, 0x38, 0x38, 0x35, 0x39, 0x2D, 0x34], .ISO_8859_4) /- iso-8859-4 -/,
  ([0x69, 0x73, 0x6F, 0x2D, 0x69, 0x72, 0x2D, 0x31, 0x31, 0x30], .ISO_8859_4) /- iso-ir-110 -/,
  ([0x69, 0x73, 0x6F, 0x38, 0x38, 0x35, 0x39, 0x2D, 0x34], .ISO_8859_4) /- iso8859-4 -/,
  ([0x69, 0x73, 0x6F, 0x38, 0x38, 0x35, 0x39, 0x34], .ISO_8859_4) /- iso88594 -/,
  ([0x69, 0x73, 0x6F, 0x5F, 0x38, 0x38, 0x35, 0x39, 0x2D, 0x34], .ISO_8859_4) /- iso_8859-4 -/,
  ([0x69, 0x73, 0x6F, 0x5F, 0x38, 0x38, 0x35, 0x39, 0x2D, 0x34, 0x3A, 0x31, 0x39, 0x38, 0x38], .ISO_8859_4) /- iso_8859-4:1988 -/,
  ([0x6C, 0x34], .ISO_8859_4) /- l4 -/,
  ([0x6C, 0x61, 0x74, 0x69, 0x6E, 0x34], .ISO_8859_4) /- latin4 -/,
  ([0x63, 0x73, 0x69, 0x73, 0x6F, 0x6C, 0x61, 0x74, 0x69, 0x6E, 0x63, 0x79, 0x72, 0x69, 0x6C, 0x6C, 0x69, 0x63], .ISO_8859_5) /- csisolatincyrillic -/,
  ([0x63, 0x79, 0x72, 0x69, 0x6C, 0x6C, 0x69, 0x63], .ISO_8859_5) /- cyrillic -/,
  ([0x69, 0x73, 0x6F, 0x2D, 0x38, 0x38, 0x35, 0x39, 0x2D, 0x35], .ISO_8859_5) /- iso-8859-5 -/,
  ([0x69, 0x73, 0x6F, 0x2D, 0x69, 0x72, 0x2D, 0x31, 0x34, 0x34], .ISO_8859_5) /- iso-ir-144 -/,
  ([0x69, 0x73, 0x6F, 0x38, 0x38, 0x35, 0x39, 0x2D, 0x35], .ISO_8859_5) /- iso8859-5 -/,
  ([0x69, 0x73, 0x6F, 0x38, 0x38, 0x35, 0x39, 0x35], .ISO_8859_5) /- iso88595 -/,
  ([0x69, 0x73, 0x6F, 0x5F, 0x38, 0x38, 0x35, 0x39, 0x2D, 0x35], .ISO_8859_5) /- iso_8859-5 -/,
  ([0x69, 0x73, 0x6F, 0x5F, 0x38, 0x38, 0x35, 0x39, 0x2D, 0x35, 0x3A, 0x31, 0x39, 0x38, 0x38], .ISO_8859_5) /- iso_8859-5:1988 -/,
  ([0x61, 0x72, 0x61, 0x62, 0x69, 0x63], .ISO_8859_6) /- arabic -/,
  ([0x61, 0x73, 0x6D, 0x6F, 0x2D, 0x37, 0x30, 0x38], .ISO_8859_6) /- asmo-708 -/,
  ([0x63, 0x73, 0x69, 0x73, 0x6F, 0x38, 0x38, 0x35, 0x39, 0x36, 0x65], .ISO_8859_6) /- csiso88596e -/,
  ([0x63, 0x73, 0x69, 0x73, 0x6F, 0x38, 0x38, 0x35, 0x39, 0x36, 0x69], .ISO_8859_6) /- csiso88596i -/,
  ([0x63, 0x73, 0x69, 0x73, 0x6F, 0x6C, 0x61, 0x74, 0x69, 0x6E, 0x61, 0x72, 0x61, 0x62, 0x69, 0x63], .ISO_8859_6) /- csisolatinarabic -/,
  ([0x65, 0x63, 0x6D, 0x61, 0x2D, 0x31, 0x31, 0x34], .ISO_8859_6) /- ecma-114 -/,
  ([0x69, 0x73, 0x6F, 0x2D, 0x38, 0x38, 0x35, 0x39, 0x2D, 0x36], .ISO_8859_6) /- iso-8859-6 -/,
  ([0x69, 0x73, 0x6F, 0x2D, 0x38, 0x38, 0x35, 0x39, 0x2D, 0x36, 0x2D, 0x65], .ISO_8859_6) /- iso-8859-6-e -/,
  ([0x69, 0x73, 0x6F, 0x2D, 0x38, 0x38, 0x35, 0x39, 0x2D, 0x36, 0x2D, 0x69], .ISO_8859_6) /- iso-8859-6-i -/,
  ([0x69, 0x73, 0x6F, 0x2D, 0x69, 0x72, 0x2D, 0x31, 0x32, 0x37], .ISO_8859_6) /- iso-ir-127 -/,
  ([0x69, 0x73, 0x6F, 0x38, 0x38, 0x35, 0x39, 0x2D, 0x36], .ISO_8859_6) /- iso8859-6 -/,
  ([0x69, 0x73, 0x6F, 0x38, 0x38, 0x35, 0x39, 0x36], .ISO_8859_6) /- iso88596 -/,
  ([0x69, 0x73, 0x6F, 0x5F, 0x38, 0x38, 0x35, 0x39, 0x2D, 0x36], .ISO_8859_6) /- iso_8859-6 -/,
  ([0x69, 0x73, 0x6F, 0x5F, 0x38, 0x38, 0x35, 0x39, 0x2D, 0x36, 0x3A, 0x31, 0x39, 0x38, 0x37], .ISO_8859_6) /- iso_8859-6:1987 -/,
  ([0x63, 0x73, 0x69, 0x73, 0x6F, 0x6C, 0x61, 0x74, 0x69, 0x6E, 0x67, 0x72, 0x65, 0x65, 0x6B], .ISO_8859_7) /- csisolatingreek -/,
  ([0x65, 0x63, 0x6D, 0x61, 0x2D, 0x31, 0x31, 0x38], .ISO_8859_7) /- ecma-118 -/,
  ([0x65, 0x6C, 0x6F, 0x74, 0x5F, 0x39, 0x32, 0x38], .ISO_8859_7) /- elot_928 -/,
  ([0x67, 0x72, 0x65, 0x65, 0x6B], .ISO_8859_7) /- greek -/,
  ([0x67, 0x72, 0x65, 0x65, 0x6B, 0x38], .ISO_8859_7) /- greek8 -/,
  ([0x69, 0x73, 0x6F, 0x2D, 0x38, 0x38, 0x35, 0x39, 0x2D, 0x37], .ISO_8859_7) /- iso-8859-7 -/,
  ([0x69, 0x73, 0x6F, 0x2D, 0x69, 0x72, 0x2D, 0x31, 0x32, 0x36], .ISO_8859_7) /- iso-ir-126 -/,
  ([0x69, 0x73, 0x6F, 0x38, 0x38, 0x35, 0x39, 0x2D, 0x37], .ISO_8859_7) /- iso8859-7 -/,
  ([0x69, 0x73, 0x6F, 0x38, 0x38, 0x35, 0x39, 0x37], .ISO_8859_7) /- iso88597 -/,
  ([0x69, 0x73, 0x6F, 0x5F, 0x38, 0x38, 0x35, 0x39, 0x2D, 0x37], .ISO_8859_7) /- iso_8859-7 -/,
  ([0x69, 0x73, 0x6F, 0x5F, 0x38, 0x38, 0x35, 0x39, 0x2D, 0x37, 0x3A, 0x31, 0x39, 0x38, 0x37], .ISO_8859_7) /- iso_8859-7:1987 -/,
  ([0x73, 0x75, 0x6E, 0x5F, 0x65, 0x75, 0x5F, 0x67, 0x72, 0x65, 0x65, 0x6B], .ISO_8859_7) /- sun_eu_greek -/,
  ([0x63, 0x73, 0x69, 0x73, 0x6F, 0x38, 0x38, 0x35, 0x39, 0x38, 0x65], .ISO_8859_8) /- csiso88598e -/,
  ([0x63, 0x73, 0x69, 0x73, 0x6F, 0x6C, 0x61, 0x74, 0x69, 0x6E, 0x68, 0x65, 0x62, 0x72, 0x65, 0x77], .ISO_8859_8) /- csisolatinhebrew -/,
  ([0x68, 0x65, 0x62, 0x72, 0x65, 0x77], .ISO_8859_8) /- hebrew -/,
  ([0x69, 0x73, 0x6F, 0x2D, 0x38, 0x38, 0x35, 0x39, 0x2D, 0x38], .ISO_8859_8) /- iso-8859-8 -/,
  ([0x69, 0x73, 0x6F, 0x2D, 0x38, 0x38, 0x35, 0x39, 0x2D, 0x38, 0x2D, 0x65], .ISO_8859_8) /- iso-8859-8-e -/,
  ([0x69, 0x73, 0x6F, 0x2D, 0x69, 0x72, 0x2D, 0x31, 0x33, 0x38], .ISO_8859_8) /- iso-ir-138 -/,
  ([0x69, 0x73, 0x6F, 0x38, 0x38, 0x35, 0x39, 0x2D, 0x38], .ISO_8859_8) /- iso8859-8 -/,
  ([0x69, 0x73, 0x6F, 0x38, 0x38, 0x35, 0x39, 0x38], .ISO_8859_8) /- iso88598 -/,
  ([0x69, 0x73, 0x6F, 0x5F, 0x38, 0x38, 0x35, 0x39, 0x2D, 0x38], .ISO_8859_8) /- iso_8859-8 -/,
  ([0x69, 0x73, 0x6F, 0x5F, 0x38, 0x38, 0x35, 0x39, 0x2D, 0x38, 0x3A, 0x31, 0x39, 0x38, 0x38], .ISO_8859_8) /- iso_8859-8:1988 -/,
  ([0x76, 0x69, 0x73, 0x75, 0x61, 0x6C], .ISO_8859_8) /- visual -/,
  ([0x63, 0x73, 0x69, 0x73, 0x6F, 0x38, 0x38, 0x35, 0x39, 0x38, 0x69], .ISO_8859_8_I) /- csiso88598i -/,
  ([0x69, 0x73, 0x6F, 0x2D, 0x38, 0x38, 0x35, 0x39, 0x2D, 0x38, 0x2D, 0x69], .ISO_8859_8_I) /- iso-8859-8-i -/,
  ([0x6C, 0x6F, 0x67, 0x69, 0x63, 0x61, 0x6C], .ISO_8859_8_I) /- logical -/,
  ([0x63, 0x73, 0x69, 0x73, 0x6F, 0x6C, 0x61, 0x74, 0x69, 0x6E, 0x36], .ISO_8859_10) /- csisolatin6 -/,
  ([0x69, 0x73, 0x6F, 0x2D, 0x38, 0x38, 0x35, 0x39, 0x2D, 0x31, 0x30], .ISO_8859_10) /- iso-8859-10 -/,
  ([0x69, 0x73, 0x6F, 0x2D, 0x69, 0x72, 0x2D, 0x31, 0x35, 0x37], .ISO_8859_10) /- iso-ir-157 -/,
  ([0x69, 0x73, 0x6F, 0x38, 0x38, 0x35, 0x39, 0x2D, 0x31, 0x30], .ISO_8859_10) /- iso8859-10 -/,
  ([0x69, 0x73, 0x6F, 0x38, 0x38, 0x35, 0x39, 0x31, 0x30], .ISO_8859_10) /- iso885910 -/,
  ([0x6C, 0x36], .ISO_8859_10) /- l6 -/,
  ([0x6C, 0x61, 0x74, 0x69, 0x6E, 0x36], .ISO_8859_10) /- latin6 -/,
  ([0x69, 0x73, 0x6F, 0x2D, 0x38, 0x38, 0x35, 0x39, 0x2D, 0x31, 0x33], .ISO_8859_13) /- iso-8859-13 -/,
  ([0x69, 0x73, 0x6F, 0x38, 0x38, 0x35, 0x39, 0x2D, 0x31, 0x33], .ISO_8859_13) /- iso8859-13 -/,
  ([0x69, 0x73, 0x6F, 0x38, 0x38, 0x35, 0x39, 0x31, 0x33], .ISO_8859_13) /- iso885913 -/,
  ([0x69, 0x73, 0x6F, 0x2D, 0x38, 0x38, 0x35, 0x39, 0x2D, 0x31, 0x34], .ISO_8859_14) /- iso-8859-14 -/,
  ([0x69, 0x73, 0x6F, 0x38, 0x38, 0x35, 0x39, 0x2D, 0x31, 0x34], .ISO_8859_14) /- iso8859-14 -/,
  ([0x69, 0x73, 0x6F, 0x38, 0x38, 0x35, 0x39, 0x31, 0x34], .ISO_8859_14) /- iso885914 -/,
  ([0x63, 0x73, 0x69, 0x73, 0x6F, 0x6C, 0x61, 0x74, 0x69, 0x6E, 0x39], .ISO_8859_15) /- csisolatin9 -/,
  ([0x69, 0x73, 0x6F, 0x2D, 0x38, 0x38, 0x35, 0x39, 0x2D, 0x31, 0x35], .ISO_8859_15) /- iso-8859-15 -/,
  ([0x69, 0x73, 0x6F, 0x38, 0x38, 0x35, 0x39, 0x2D, 0x31, 0x35], .ISO_8859_15) /- iso8859-15 -/,
  ([0x69, 0x73, 0x6F, 0x38, 0x38, 0x35, 0x39, 0x31, 0x35], .ISO_8859_15) /- iso885915 -/,
  ([0x69, 0x73, 0x6F, 0x5F, 0x38, 0x38, 0x35, 0x39, 0x2D, 0x31, 0x35], .ISO_8859_15) /- iso_8859-15 -/,
  ([0x6C, 0x39], .ISO_8859_15) /- l9 -/,
  ([0x69, 0x73, 0x6F, 0x2D, 0x38, 0x38, 0x35, 0x39, 0x2D, 0x31, 0x36], .ISO_8859_16) /- iso-8859-16 -/,
  ([0x63, 0x73, 0x6B, 0x6F, 0x69, 0x38, 0x72], .KOI8_R) /- cskoi8r -/,
  ([0x6B, 0x6F, 0x69], .KOI8_R) /- koi -/,
  ([0x6B, 0x6F, 0x69, 0x38], .KOI8_R) /- koi8 -/,
  ([0x6B, 0x6F, 0x69, 0x38, 0x2D, 0x72], .KOI8_R) /- koi8-r -/,
  ([0x6B, 0x6F, 0x69, 0x38, 0x5F, 0x72], .KOI8_R) /- koi8_r -/,
  ([0x6B, 0x6F, 0x69, 0x38, 0x2D, 0x72, 0x75], .KOI8_U) /- koi8-ru -/,
  ([0x6B, 0x6F, 0x69, 0x38, 0x2D, 0x75], .KOI8_U) /- koi8-u -/,
  ([0x63, 0x73, 0x6D, 0x61, 0x63, 0x69, 0x6E, 0x74, 0x6F, 0x73, 0x68], .macintosh) /- csmacintosh -/,
  ([0x6D, 0x61, 0x63], .macintosh) /- mac -/,
  ([0x6D, 0x61, 0x63, 0x69, 0x6E, 0x74, 0x6F, 0x73, 0x68], .macintosh) /- macintosh -/,
  ([0x78, 0x2D, 0x6D, 0x61, 0x63, 0x2D, 0x72, 0x6F, 0x6D, 0x61, 0x6E], .macintosh) /- x-mac-roman -/,
  ([0x64, 0x6F, 0x73, 0x2D, 0x38, 0x37, 0x34], .windows_874) /- dos-874 -/,
  ([0x69, 0x73, 0x6F, 0x2D, 0x38, 0x38, 0x35, 0x39, 0x2D, 0x31, 0x31], .windows_874) /- iso-8859-11 -/,
  ([0x69, 0x73, 0x6F, 0x38, 0x38, 0x35, 0x39, 0x2D, 0x31, 0x31], .windows_874) /- iso8859-11 -/,
  ([0x69, 0x73, 0x6F, 0x38, 0x38, 0x35, 0x39, 0x31, 0x31], .windows_874) /- iso885911 -/,
  ([0x74, 0x69, 0x73, 0x2D, 0x36, 0x32, 0x30], .windows_874) /- tis-620 -/,
  ([0x77, 0x69, 0x6E, 0x64, 0x6F, 0x77, 0x73, 0x2D, 0x38, 0x37, 0x34], .windows_874) /- windows-874 -/,
  ([0x63, 0x70, 0x31, 0x32, 0x35, 0x30], .windows_1250) /- cp1250 -/,
  ([0x77, 0x69, 0x6E, 0x64, 0x6F, 0x77, 0x73, 0x2D, 0x31, 0x32, 0x35, 0x30], .windows_1250) /- windows-1250 -/,
  ([0x78, 0x2D, 0x63, 0x70, 0x31, 0x32, 0x35, 0x30], .windows_1250) /- x-cp1250 -/,
  ([0x63, 0x70, 0x31, 0x32, 0x35, 0x31], .windows_1251) /- cp1251 -/,
  ([0x77, 0x69, 0x6E, 0x64, 0x6F, 0x77, 0x73, 0x2D, 0x31, 0x32, 0x35, 0x31], .windows_1251) /- windows-1251 -/,
  ([0x78, 0x2D, 0x63, 0x70, 0x31, 0x32, 0x35, 0x31], .windows_1251) /- x-cp1251 -/,
  ([0x61, 0x6E, 0x73, 0x69, 0x5F, 0x78, 0x33, 0x2E, 0x34, 0x2D, 0x31, 0x39, 0x36, 0x38], .windows_1252) /- ansi_x3.4-1968 -/,
  ([0x61, 0x73, 0x63, 0x69, 0x69], .windows_1252) /- ascii -/,
  ([0x63, 0x70, 0x31, 0x32, 0x35, 0x32], .windows_1252) /- cp1252 -/,
  ([0x63, 0x70, 0x38, 0x31, 0x39], .windows_1252) /- cp819 -/,
  ([0x63, 0x73, 0x69, 0x73, 0x6F, 0x6C, 0x61, 0x74, 0x69, 0x6E, 0x31], .windows_1252) /- csisolatin1 -/,
  ([0x69, 0x62, 0x6D, 0x38, 0x31, 0x39], .windows_1252) /- ibm819 -/,
  ([0x69, 0x73, 0x6F, 0x2D, 0x38, 0x38, 0x35, 0x39, 0x2D, 0x31], .windows_1252) /- iso-8859-1 -/,
  ([0x69, 0x73, 0x6F, 0x2D, 0x69, 0x72, 0x2D, 0x31, 0x30, 0x30], .windows_1252) /- iso-ir-100 -/,
  ([0x69, 0x73, 0x6F, 0x38, 0x38, 0x35, 0x39, 0x2D, 0x31], .windows_1252) /- iso8859-1 -/,
  ([0x69, 0x73, 0x6F, 0x38, 0x38, 0x35, 0x39, 0x31], .windows_1252) /- iso88591 -/,
  ([0x69, 0x73, 0x6F, 0x5F, 0x38, 0x38, 0x35, 0x39, 0x2D, 0x31], .windows_1252) /- iso_8859-1 -/,
  ([0x69, 0x73, 0x6F, 0x5F, 0x38, 0x38, 0x35, 0x39, 0x2D, 0x31, 0x3A, 0x31, 0x39, 0x38, 0x37], .windows_1252) /- iso_8859-1:1987 -/,
  ([0x6C, 0x31], .windows_1252) /- l1 -/,
  ([0x6C, 0x61, 0x74, 0x69, 0x6E, 0x31], .windows_1252) /- latin1 -/,
  ([0x75, 0x73, 0x2D, 0x61, 0x73, 0x63, 0x69, 0x69], .windows_1252) /- us-ascii -/,
  ([0x77, 0x69, 0x6E, 0x64, 0x6F, 0x77, 0x73, 0x2D, 0x31, 0x32, 0x35, 0x32], .windows_1252) /- windows-1252 -/,
  ([0x78, 0x2D, 0x63, 0x70, 0x31, 0x32, 0x35, 0x32], .windows_1252) /- x-cp1252 -/,
  ([0x63, 0x70, 0x31, 0x32, 0x35, 0x33], .windows_1253) /- cp1253 -/,
  ([0x77, 0x69, 0x6E, 0x64, 0x6F, 0x77, 0x73, 0x2D, 0x31, 0x32, 0x35, 0x33], .windows_1253) /- windows-1253 -/,
  ([0x78, 0x2D, 0x63, 0x70, 0x31, 0x32, 0x35, 0x33], .windows_1253) /- x-cp1253 -/,
  ([0x63, 0x70, 0x31, 0x32, 0x35, 0x34], .windows_1254) /- cp1254 -/,
  ([0x63, 0x73, 0x69, 0x73, 0x6F, 0x6C, 0x61, 0x74, 0x69, 0x6E, 0x35], .windows_1254) /- csisolatin5 -/,
  ([0x69, 0x73, 0x6F, 0x2D, 0x38, 0x38, 0x35, 0x39, 0x2D, 0x39], .windows_1254) /- iso-8859-9 -/,
  ([0x69, 0x73, 0x6F, 0x2D, 0x69, 0x72, 0x2D, 0x31, 0x34, 0x38], .windows_1254) /- iso-ir-148 -/,
  ([0x69, 0x73, 0x6F, 0x38, 0x38, 0x35, 0x39, 0x2D, 0x39], .windows_1254) /- iso8859-9 -/,
  ([0x69, 0x73, 0x6F, 0x38, 0x38, 0x35, 0x39, 0x39], .windows_1254) /- iso88599 -/,
  ([0x69, 0x73, 0x6F, 0x5F, 0x38, 0x38, 0x35, 0x39, 0x2D, 0x39], .windows_1254) /- iso_8859-9 -/,
  ([0x69, 0x73, 0x6F, 0x5F, 0x38, 0x38, 0x35, 0x39, 0x2D, 0x39, 0x3A, 0x31, 0x39, 0x38, 0x39], .windows_1254) /- iso_8859-9:1989 -/,
  ([0x6C, 0x35], .windows_1254) /- l5 -/,
  ([0x6C, 0x61, 0x74, 0x69, 0x6E, 0x35], .windows_1254) /- latin5 -/,
  ([0x77, 0x69, 0x6E, 0x64, 0x6F, 0x77, 0x73, 0x2D, 0x31, 0x32, 0x35, 0x34], .windows_1254) /- windows-1254 -/,
  ([0x78, 0x2D, 0x63, 0x70, 0x31, 0x32, 0x35, 0x34], .windows_1254) /- x-cp1254 -/,
  ([0x63, 0x70, 0x31, 0x32, 0x35, 0x35], .windows_1255) /- cp1255 -/,
  ([0x77, 0x69, 0x6E, 0x64, 0x6F, 0x77, 0x73, 0x2D, 0x31, 0x32, 0x35, 0x35], .windows_1255) /- windows-1255 -/,
  ([0x78, 0x2D, 0x63, 0x70, 0x31, 0x32, 0x35, 0x35], .windows_1255) /- x-cp1255 -/,
  ([0x63, 0x70, 0x31, 0x32, 0x35, 0x36], .windows_1256) /- cp1256 -/,
  ([0x77, 0x69, 0x6E, 0x64, 0x6F, 0x77, 0x73, 0x2D, 0x31, 0x32, 0x35, 0x36], .windows_1256) /- windows-1256 -/,
  ([0x78, 0x2D, 0x63, 0x70, 0x31, 0x32, 0x35, 0x36], .windows_1256) /- x-cp1256 -/,
  ([0x63, 0x70, 0x31, 0x32, 0x35, 0x37], .windows_1257) /- cp1257 -/,
  ([0x77, 0x69, 0x6E, 0x64, 0x6F, 0x77, 0x73, 0x2D, 0x31, 0x32, 0x35, 0x37], .windows_1257) /- windows-1257 -/,
  ([0x78, 0x2D, 0x63, 0x70, 0x31, 0x32, 0x35, 0x37], .windows_1257) /- x-cp1257 -/,
  ([0x63, 0x70, 0x31, 0x32, 0x35, 0x38], .windows_1258) /- cp1258 -/,
  ([0x77, 0x69, 0x6E, 0x64, 0x6F, 0x77, 0x73, 0x2D, 0x31, 0x32, 0x35, 0x38], .windows_1258) /- windows-1258 -/,
  ([0x78, 0x2D, 0x63, 0x70, 0x31, 0x32, 0x35, 0x38], .windows_1258) /- x-cp1258 -/,
  ([0x78, 0x2D, 0x6D, 0x61, 0x63, 0x2D, 0x63, 0x79, 0x72, 0x69, 0x6C, 0x6C, 0x69, 0x63], .x_mac_cyrillic) /- x-mac-cyrillic -/,
  ([0x78, 0x2D, 0x6D, 0x61, 0x63, 0x2D, 0x75, 0x6B, 0x72, 0x61, 0x69, 0x6E, 0x69, 0x61, 0x6E], .x_mac_cyrillic) /- x-mac-ukrainian -/,
  ([0x63, 0x68, 0x69, 0x6E, 0x65, 0x73, 0x65], .GBK) /- chinese -/,
  ([0x63, 0x73, 0x67, 0x62, 0x32, 0x33, 0x31, 0x32], .GBK) /- csgb2312 -/,
  ([0x63, 0x73, 0x69, 0x73, 0x6F, 0x35, 0x38, 0x67, 0x62, 0x32, 0x33, 0x31, 0x32, 0x38, 0x30], .GBK) /- csiso58gb231280 -/,
  ([0x67, 0x62, 0x32, 0x33, 0x31, 0x32], .GBK) /- gb2312 -/,
  ([0x67, 0x62, 0x5F, 0x32, 0x33, 0x31, 0x32], .GBK) /- gb_2312 -/,
  ([0x67, 0x62, 0x5F, 0x32, 0x33, 0x31, 0x32, 0x2D, 0x38, 0x30], .GBK) /- gb_2312-80 -/,
  ([0x67, 0x62, 0x6B], .GBK) /- gbk -/,
  ([0x69, 0x73, 0x6F, 0x2D, 0x69, 0x72, 0x2D, 0x35, 0x38], .GBK) /- iso-ir-58 -/,
  ([0x78, 0x2D, 0x67, 0x62, 0x6B], .GBK) /- x-gbk -/,
  ([0x67, 0x62, 0x31, 0x38, 0x30, 0x33, 0x30], .gb18030) /- gb18030 -/,
  ([0x62, 0x69, 0x67, 0x35], .Big5) /- big5 -/,
  ([0x62, 0x69, 0x67, 0x35, 0x2D, 0x68, 0x6B, 0x73, 0x63, 0x73], .Big5) /- big5-hkscs -/,
  ([0x63, 0x6E, 0x2D, 0x62, 0x69, 0x67, 0x35], .Big5) /- cn-big5 -/,
  ([0x63, 0x73, 0x62, 0x69, 0x67, 0x35], .Big5) /- csbig5 -/,
  ([0x78, 0x2D, 0x78, 0x2D, 0x62, 0x69, 0x67, 0x35], .Big5) /- x-x-big5 -/,
  ([0x63, 0x73, 0x65, 0x75, 0x63, 0x70, 0x6B, 0x64, 0x66, 0x6D, 0x74, 0x6A, 0x61, 0x70, 0x61, 0x6E, 0x65, 0x73, 0x65], .EUC_JP) /- cseucpkdfmtjapanese -/,
  ([0x65, 0x75, 0x63, 0x2D, 0x6A, 0x70], .EUC_JP) /- euc-jp -/,
  ([0x78, 0x2D, 0x65, 0x75, 0x63, 0x2D, 0x6A, 0x70], .EUC_JP) /- x-euc-jp -/,
  ([0x63, 0x73, 0x69, 0x73, 0x6F, 0x32, 0x30, 0x32, 0x32, 0x6A, 0x70], .ISO_2022_JP) /- csiso2022jp -/,
  ([0x69, 0x73, 0x6F, 0x2D, 0x32, 0x30, 0x32, 0x32, 0x2D, 0x6A, 0x70], .ISO_2022_JP) /- iso-2022-jp -/,
  ([0x63, 0x73, 0x73, 0x68, 0x69, 0x66, 0x74, 0x6A, 0x69, 0x73], .Shift_JIS) /- csshiftjis -/,
  ([0x6D, 0x73, 0x39, 0x33, 0x32], .Shift_JIS) /- ms932 -/,
  ([0x6D, 0x73, 0x5F, 0x6B, 0x61, 0x6E, 0x6A, 0x69], .Shift_JIS) /- ms_kanji -/,
  ([0x73, 0x68, 0x69, 0x66, 0x74, 0x2D, 0x6A, 0x69, 0x73], .Shift_JIS) /- shift-jis -/,
  ([0x73, 0x68, 0x69, 0x66, 0x74, 0x5F, 0x6A, 0x69, 0x73], .Shift_JIS) /- shift_jis -/,
  ([0x73, 0x6A, 0x69, 0x73], .Shift_JIS) /- sjis -/,
  ([0x77, 0x69, 0x6E, 0x64, 0x6F, 0x77, 0x73, 0x2D, 0x33, 0x31, 0x6A], .Shift_JIS) /- windows-31j -/,
  ([0x78, 0x2D, 0x73, 0x6A, 0x69, 0x73], .Shift_JIS) /- x-sjis -/,
  ([0x63, 0x73, 0x65, 0x75, 0x63, 0x6B, 0x72], .EUC_KR) /- cseuckr -/,
  ([0x63, 0x73, 0x6B, 0x73, 0x63, 0x35, 0x36, 0x30, 0x31, 0x31, 0x39, 0x38, 0x37], .EUC_KR) /- csksc56011987 -/,
  ([0x65, 0x75, 0x63, 0x2D, 0x6B, 0x72], .EUC_KR) /- euc-kr -/,
  ([0x69, 0x73, 0x6F, 0x2D, 0x69, 0x72, 0x2D, 0x31, 0x34, 0x39], .EUC_KR) /- iso-ir-149 -/,
  ([0x6B, 0x6F, 0x72, 0x65, 0x61, 0x6E], .EUC_KR) /- korean -/,
  ([0x6B, 0x73, 0x5F, 0x63, 0x5F, 0x35, 0x36, 0x30, 0x31, 0x2D, 0x31, 0x39, 0x38, 0x37], .EUC_KR) /- ks_c_5601-1987 -/,
  ([0x6B, 0x73, 0x5F, 0x63, 0x5F, 0x35, 0x36, 0x30, 0x31, 0x2D, 0x31, 0x39, 0x38, 0x39], .EUC_KR) /- ks_c_5601-1989 -/,
  ([0x6B, 0x73, 0x63, 0x35, 0x36, 0x30, 0x31], .EUC_KR) /- ksc5601 -/,
  ([0x6B, 0x73, 0x63, 0x5F, 0x35, 0x36, 0x30, 0x31], .EUC_KR) /- ksc_5601 -/,
  ([0x77, 0x69, 0x6E, 0x64, 0x6F, 0x77, 0x73, 0x2D, 0x39, 0x34, 0x39], .EUC_KR) /- windows-949 -/,
  ([0x63, 0x73, 0x69, 0x73, 0x6F, 0x32, 0x30, 0x32, 0x32, 0x6B, 0x72], .replacement) /- csiso2022kr -/,
  ([0x68, 0x7A, 0x2D, 0x67, 0x62, 0x2D, 0x32, 0x33, 0x31, 0x32], .replacement) /- hz-gb-2312 -/,
  ([0x69, 0x73, 0x6F, 0x2D, 0x32, 0x30, 0x32, 0x32, 0x2D, 0x63, 0x6E], .replacement) /- iso-2022-cn -/,
  ([0x69, 0x73, 0x6F, 0x2D, 0x32, 0x30, 0x32, 0x32, 0x2D, 0x63, 0x6E, 0x2D, 0x65, 0x78, 0x74], .replacement) /- iso-2022-cn-ext -/,
  ([0x69, 0x73, 0x6F, 0x2D, 0x32, 0x30, 0x32, 0x32, 0x2D, 0x6B, 0x72], .replacement) /- iso-2022-kr -/,
  ([0x72, 0x65, 0x70, 0x6C, 0x61, 0x63, 0x65, 0x6D, 0x65, 0x6E, 0x74], .replacement) /- replacement -/,
  ([0x75, 0x74, 0x66, 0x2D, 0x31, 0x36, 0x62, 0x65], .UTF_16BE) /- utf-16be -/,
  ([0x75, 0x74, 0x66, 0x2D, 0x31, 0x36], .UTF_16LE) /- utf-16 -/,
  ([0x75, 0x74, 0x66, 0x2D, 0x31, 0x36, 0x6C, 0x65], .UTF_16LE) /- utf-16le -/,
  ([0x78, 0x2D, 0x75, 0x73, 0x65, 0x72, 0x2D, 0x64, 0x65, 0x66, 0x69, 0x6E, 0x65, 0x64], .x_user_defined) /- x-user-defined -/]

/-- `encoding_label_map.find(tmp2)` (285). -/
def find (label : List Nat) : List (List Nat × Enc) → Option Enc
  | [] => none
  | (l, e) :: rest => if l = label then some e else find label rest

/-- `get_encoding_name` (278-287): outer `none` = undefined behaviour, `some none` = the value 0. -/
def getEncodingName (label : List Nat) : Option (Option Enc) :=
  match stripLeadingTrailing .c32 .c32 label with
  | none => none
  | some tmp1 =>
    match toAsciiLowercase .c32 .c32 tmp1 with
    | none => none
    | some tmp2 => some (find tmp2 labelMap)

/-- `get_encoding_label` (encoding.hpp:171-220). -/
def getEncodingLabel : Enc → List Nat
  | .UTF_8 => [0x75, 0x74, 0x66, 0x2D, 0x38] /- utf-8 -/
  | .IBM866 => [0x69, 0x62, 0x6D, 0x38, 0x36, 0x36] /- ibm866 -/
  | .ISO_8859_2 => [0x69, 0x73, 0x6F, 0x2D, 0x38, 0x38, 0x35, 0x39, 0x2D, 0x32] /- iso-8859-2 -/
  | .ISO_8859_3 => [0x69, 0x73, 0x6F, 0x2D, 0x38, 0x38, 0x35, 0x39, 0x2D, 0x33] /- iso-8859-3 -/
  | .ISO_8859_4 => [0x69, 0x73, 0x6F, 0x2D, 0x38, 0x38, 0x35, 0x39, 0x2D, 0x34] /- iso-8859-4 -/
  | .ISO_8859_5 => [0x69, 0x73, 0x6F, 0x2D, 0x38, 0x38, 0x35, 0x39, 0x2D, 0x35] /- iso-8859-5 -/
  | .ISO_8859_6 => [0x69, 0x73, 0x6F, 0x2D, 0x38, 0x38, 0x35, 0x39, 0x2D, 0x36] /- iso-8859-6 -/
  | .ISO_8859_7 => [0x69, 0x73, 0x6F, 0x2D, 0x38, 0x38, 0x35, 0x39, 0x2D, 0x37] /- iso-8859-7 -/
  | .ISO_8859_8 => [0x69, 0x73, 0x6F, 0x2D, 0x38, 0x38, 0x35, 0x39, 0x2D, 0x38] /- iso-8859-8 -/
  | .ISO_8859_8_I => [0x69, 0x73, 0x6F, 0x2D, 0x38, 0x38, 0x35, 0x39, 0x2D, 0x38, 0x2D, 0x69] /- iso-8859-8-i -/
  | .ISO_8859_10 => [0x69, 0x73, 0x6F, 0x2D, 0x38, 0x38, 0x35, 0x39, 0x2D, 0x31, 0x30] /- iso-8859-10 -/
  | .ISO_8859_13 => [0x69, 0x73, 0x6F, 0x2D, 0x38, 0x38, 0x35, 0x39, 0x2D, 0x31, 0x33] /- iso-8859-13 -/
  | .ISO_8859_14 => [0x69, 0x73, 0x6F, 0x2D, 0x38, 0x38, 0x35, 0x39, 0x2D, 0x31, 0x34] /- iso-8859-14 -/
  | .ISO_8859_15 => [0x69, 0x73, 0x6F, 0x2D, 0x38, 0x38, 0x35, 0x39, 0x2D, 0x31, 0x34] /- iso-8859-14 -/
  | .ISO_8859_16 => [0x69, 0x73, 0x6F, 0x2D, 0x38, 0x38, 0x35, 0x39, 0x2D, 0x31, 0x36] /- iso-8859-16 -/
  | .KOI8_R => [0x6B, 0x6F, 0x69, 0x38, 0x2D, 0x72] /- koi8-r -/
  | .KOI8_U => [0x6B, 0x6F, 0x69, 0x38, 0x2D, 0x75] /- koi8-u -/
  | .macintosh => [0x6D, 0x61, 0x63, 0x69, 0x6E, 0x74, 0x6F, 0x73, 0x68] /- macintosh -/
  | .windows_874 => [0x77, 0x69, 0x6E, 0x64, 0x6F, 0x77, 0x73, 0x2D, 0x38, 0x37, 0x34] /- windows-874 -/
  | .windows_1250 => [0x77, 0x69, 0x6E, 0x64, 0x6F, 0x77, 0x73, 0x2D, 0x31, 0x32, 0x35, 0x30] /- windows-1250 -/
  | .windows_1251 => [0x77, 0x69, 0x6E, 0x64, 0x6F, 0x77, 0x73, 0x2D, 0x31, 0x32, 0x35, 0x31] /- windows-1251 -/
  | .windows_1252 => [0x77, 0x69, 0x6E, 0x64, 0x6F, 0x77, 0x73, 0x2D, 0x31, 0x32, 0x35, 0x32] /- windows-1252 -/
  | .windows_1253 => [0x77, 0x69, 0x6E, 0x64, 0x6F, 0x77, 0x73, 0x2D, 0x31, 0x32, 0x35, 0x33] /- windows-1253 -/
  | .windows_1254 => [0x77, 0x69, 0x6E, 0x64, 0x6F, 0x77, 0x73, 0x2D, 0x31, 0x32, 0x35, 0x34] /- windows-1254 -/
  | .windows_1255 => [0x77, 0x69, 0x6E, 0x64, 0x6F, 0x77, 0x73, 0x2D, 0x31, 0x32, 0x35, 0x35] /- windows-1255 -/
  | .windows_1256 => [0x77, 0x69, 0x6E, 0x64, 0x6F, 0x77, 0x73, 0x2D, 0x31, 0x32, 0x35, 0x36] /- windows-1256 -/
  | .windows_1257 => [0x77, 0x69, 0x6E, 0x64, 0x6F, 0x77, 0x73, 0x2D, 0x31, 0x32, 0x35, 0x37] /- windows-1257 -/
  | .windows_1258 => [0x77, 0x69, 0x6E, 0x64, 0x6F, 0x77, 0x73, 0x2D, 0x31, 0x32, 0x35, 0x38] /- windows-1258 -/
  | .x_mac_cyrillic => [0x78, 0x2D, 0x6D, 0x61, 0x63, 0x2D, 0x63, 0x79, 0x72, 0x69, 0x6C, 0x6C, 0x69, 0x63] /- x-mac-cyrillic -/
  | .GBK => [0x67, 0x62, 0x6B] /- gbk -/
  | .gb18030 => [0x67, 0x62, 0x31, 0x38, 0x30, 0x33, 0x30] /- gb18030 -/
  | .Big5 => [0x62, 0x69, 0x67, 0x35] /- big5 -/
  | .EUC_JP => [0x65, 0x75, 0x63, 0x2D, 0x6A, 0x70] /- euc-jp -/
  | .ISO_2022_JP => [0x69, 0x73, 0x6F, 0x2D, 0x32, 0x30, 0x32, 0x32, 0x2D, 0x6A, 0x70] /- iso-2022-jp -/
  | .Shift_JIS => [0x73, 0x68, 0x69, 0x66, 0x74, 0x5F, 0x6A, 0x69, 0x73] /- shift_jis -/
  | .EUC_KR => [0x65, 0x75, 0x63, 0x2D, 0x6B, 0x72] /- euc-kr -/
  | .replacement => [0x72, 0x65, 0x70, 0x6C, 0x61, 0x63, 0x65, 0x6D, 0x65, 0x6E, 0x74] /- replacement -/
  | .UTF_16BE => [0x75, 0x74, 0x66, 0x2D, 0x31, 0x36, 0x62, 0x65] /- utf-16be -/
  | .UTF_16LE => [0x75, 0x74, 0x66, 0x2D, 0x31, 0x36, 0x6C, 0x65] /- utf-16le -/
  | .x_user_defined => [0x78, 0x2D, 0x75, 0x73, 0x65, 0x72, 0x2D, 0x64, 0x65, 0x66, 0x69, 0x6E, 0x65, 0x64] /- x-user-defined -/

end Verif.Model.Labels
