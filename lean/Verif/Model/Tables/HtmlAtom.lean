/-
Tables of lib/whatwg/html/parsing/atom_tbl.cpp and the enumerations of
include/wordring/whatwg/html/parsing/atom_defs.hpp: name spaces, tags and attributes. Strings are lists of code points;
each row carries its spelling.
-/
namespace Verif.Model.Tables.HtmlAtom

/-- `ns_uri_atom_tbl`(atom_tbl.cpp:1072-1079), enumerators as numbers. -/
def nsMap : List (List Nat × Nat) := [
  ([104, 116, 116, 112, 58, 47, 47, 119, 119, 119, 46, 119, 51, 46, 111, 114, 103, 47, 49, 57, 57, 57, 47, 120, 104, 116, 109, 108], 1) /- http://www.w3.org/1999/xhtml -/,
  ([104, 116, 116, 112, 58, 47, 47, 119, 119, 119, 46, 119, 51, 46, 111, 114, 103, 47, 49, 57, 57, 56, 47, 77, 97, 116, 104, 47, 77, 97, 116, 104, 77, 76], 2) /- http://www.w3.org/1998/Math/MathML -/,
  ([104, 116, 116, 112, 58, 47, 47, 119, 119, 119, 46, 119, 51, 46, 111, 114, 103, 47, 50, 48, 48, 48, 47, 115, 118, 103], 3) /- http://www.w3.org/2000/svg -/,
  ([104, 116, 116, 112, 58, 47, 47, 119, 119, 119, 46, 119, 51, 46, 111, 114, 103, 47, 49, 57, 57, 57, 47, 120, 108, 105, 110, 107], 4) /- http://www.w3.org/1999/xlink -/,
  ([104, 116, 116, 112, 58, 47, 47, 119, 119, 119, 46, 119, 51, 46, 111, 114, 103, 47, 88, 77, 76, 47, 49, 57, 57, 56, 47, 110, 97, 109, 101, 115, 112, 97, 99, 101], 5) /- http://www.w3.org/XML/1998/namespace -/,
  ([104, 116, 116, 112, 58, 47, 47, 119, 119, 119, 46, 119, 51, 46, 111, 114, 103, 47, 50, 48, 48, 48, 47, 120, 109, 108, 110, 115, 47], 6) /- http://www.w3.org/2000/xmlns/ -/
]

/-- `ns_uri_tbl` (atom_tbl.cpp:1204-1212). -/
def nsNames : List (List Nat) := [
  [] /-  -/,
  [104, 116, 116, 112, 58, 47, 47, 119, 119, 119, 46, 119, 51, 46, 111, 114, 103, 47, 49, 57, 57, 57, 47, 120, 104, 116, 109, 108] /- http://www.w3.org/1999/xhtml -/,
  [104, 116, 116, 112, 58, 47, 47, 119, 119, 119, 46, 119, 51, 46, 111, 114, 103, 47, 49, 57, 57, 56, 47, 77, 97, 116, 104, 47, 77, 97, 116, 104, 77, 76] /- http://www.w3.org/1998/Math/MathML -/,
  [104, 116, 116, 112, 58, 47, 47, 119, 119, 119, 46, 119, 51, 46, 111, 114, 103, 47, 50, 48, 48, 48, 47, 115, 118, 103] /- http://www.w3.org/2000/svg -/,
  [104, 116, 116, 112, 58, 47, 47, 119, 119, 119, 46, 119, 51, 46, 111, 114, 103, 47, 49, 57, 57, 57, 47, 120, 108, 105, 110, 107] /- http://www.w3.org/1999/xlink -/,
  [104, 116, 116, 112, 58, 47, 47, 119, 119, 119, 46, 119, 51, 46, 111, 114, 103, 47, 88, 77, 76, 47, 49, 57, 57, 56, 47, 110, 97, 109, 101, 115, 112, 97, 99, 101] /- http://www.w3.org/XML/1998/namespace -/,
  [104, 116, 116, 112, 58, 47, 47, 119, 119, 119, 46, 119, 51, 46, 111, 114, 103, 47, 50, 48, 48, 48, 47, 120, 109, 108, 110, 115, 47] /- http://www.w3.org/2000/xmlns/ -/
]

/-- `ns_name` (atom_defs.hpp:8-16): identifier and value. -/
def nsEnum : List (List Nat × Nat) := [
  ([72, 84, 77, 76], 1) /- HTML -/,
  ([77, 97, 116, 104, 77, 76], 2) /- MathML -/,
  ([83, 86, 71], 3) /- SVG -/,
  ([88, 76, 105, 110, 107], 4) /- XLink -/,
  ([88, 77, 76], 5) /- XML -/,
  ([88, 77, 76, 78, 83], 6) /- XMLNS -/
]

/-- `tag_atom_tbl`(atom_tbl.cpp:7-434), enumerators as numbers. -/
def tagMap : List (List Nat × Nat) := [
  ([97], 1) /- a -/,
  ([97, 98, 98, 114], 2) /- abbr -/,
  ([97, 98, 115], 3) /- abs -/,
  ([97, 100, 100, 114, 101, 115, 115], 4) /- address -/,
  ([97, 108, 116, 71, 108, 121, 112, 104], 5) /- altGlyph -/,
  ([97, 108, 116, 71, 108, 121, 112, 104, 68, 101, 102], 6) /- altGlyphDef -/,
  ([97, 108, 116, 71, 108, 121, 112, 104, 73, 116, 101, 109], 7) /- altGlyphItem -/,
  ([97, 108, 116, 103, 108, 121, 112, 104], 8) /- altglyph -/,
  ([97, 108, 116, 103, 108, 121, 112, 104, 100, 101, 102], 9) /- altglyphdef -/,
  ([97, 108, 116, 103, 108, 121, 112, 104, 105, 116, 101, 109], 10) /- altglyphitem -/,
  ([97, 110, 100], 11) /- and -/,
  ([97, 110, 105, 109, 97, 116, 101], 12) /- animate -/,
  ([97, 110, 105, 109, 97, 116, 101, 67, 111, 108, 111, 114], 13) /- animateColor -/,
  ([97, 110, 105, 109, 97, 116, 101, 77, 111, 116, 105, 111, 110], 14) /- animateMotion -/,
  ([97, 110, 105, 109, 97, 116, 101, 84, 114, 97, 110, 115, 102, 111, 114, 109], 15) /- animateTransform -/,
  ([97, 110, 105, 109, 97, 116, 101, 99, 111, 108, 111, 114], 16) /- animatecolor -/,
  ([97, 110, 105, 109, 97, 116, 101, 109, 111, 116, 105, 111, 110], 17) /- animatemotion -/,
  ([97, 110, 105, 109, 97, 116, 101, 116, 114, 97, 110, 115, 102, 111, 114, 109], 18) /- animatetransform -/,
  ([97, 110, 110, 111, 116, 97, 116, 105, 111, 110], 19) /- annotation -/,
  ([97, 110, 110, 111, 116, 97, 116, 105, 111, 110, 45, 120, 109, 108], 20) /- annotation-xml -/,
  ([97, 112, 112, 108, 101, 116], 21) /- applet -/,
  ([97, 112, 112, 108, 121], 22) /- apply -/,
  ([97, 112, 112, 114, 111, 120], 23) /- approx -/,
  ([97, 114, 99, 99, 111, 115], 24) /- arccos -/,
  ([97, 114, 99, 99, 111, 115, 104], 25) /- arccosh -/,
  ([97, 114, 99, 99, 111, 116], 26) /- arccot -/,
  ([97, 114, 99, 99, 111, 116, 104], 27) /- arccoth -/,
  ([97, 114, 99, 99, 115, 99], 28) /- arccsc -/,
  ([97, 114, 99, 99, 115, 99, 104], 29) /- arccsch -/,
  ([97, 114, 99, 115, 101, 99], 30) /- arcsec -/,
  ([97, 114, 99, 115, 101, 99, 104], 31) /- arcsech -/,
  ([97, 114, 99, 115, 105, 110], 32) /- arcsin -/,
  ([97, 114, 99, 115, 105, 110, 104], 33) /- arcsinh -/,
  ([97, 114, 99, 116, 97, 110], 34) /- arctan -/,
  ([97, 114, 99, 116, 97, 110, 104], 35) /- arctanh -/,
  ([97, 114, 101, 97], 36) /- area -/,
  ([97, 114, 103], 37) /- arg -/,
  ([97, 114, 116, 105, 99, 108, 101], 38) /- article -/,
  ([97, 115, 105, 100, 101], 39) /- aside -/,
  ([97, 117, 100, 105, 111], 40) /- audio -/,
  ([98], 41) /- b -/,
  ([98, 97, 115, 101], 42) /- base -/,
  ([98, 97, 115, 101, 102, 111, 110, 116], 43) /- basefont -/,
  ([98, 100, 105], 44) /- bdi -/,
  ([98, 100, 111], 45) /- bdo -/,
  ([98, 103, 115, 111, 117, 110, 100], 46) /- bgsound -/,
  ([98, 105, 103], 47) /- big -/,
  ([98, 105, 110, 100], 48) /- bind -/,
  ([98, 108, 111, 99, 107, 113, 117, 111, 116, 101], 49) /- blockquote -/,
  ([98, 111, 100, 121], 50) /- body -/,
  ([98, 114], 51) /- br -/,
  ([98, 117, 116, 116, 111, 110], 52) /- button -/,
  ([98, 118, 97, 114], 53) /- bvar -/,
  ([99, 97, 110, 118, 97, 115], 54) /- canvas -/,
  ([99, 97, 112, 116, 105, 111, 110], 55) /- caption -/,
  ([99, 97, 114, 100], 56) /- card -/,
  ([99, 97, 114, 116, 101, 115, 105, 97, 110, 112, 114, 111, 100, 117, 99, 116], 57) /- cartesianproduct -/,
  ([99, 98, 121, 116, 101, 115], 58) /- cbytes -/,
  ([99, 101, 105, 108, 105, 110, 103], 59) /- ceiling -/,
  ([99, 101, 110, 116, 101, 114], 60) /- center -/,
  ([99, 101, 114, 114, 111, 114], 61) /- cerror -/,
  ([99, 105], 62) /- ci -/,
  ([99, 105, 114, 99, 108, 101], 63) /- circle -/,
  ([99, 105, 116, 101], 64) /- cite -/,
  ([99, 108, 105, 112, 80, 97, 116, 104], 65) /- clipPath -/,
  ([99, 108, 105, 112, 112, 97, 116, 104], 66) /- clippath -/,
  ([99, 110], 67) /- cn -/,
  ([99, 111, 100, 101], 68) /- code -/,
  ([99, 111, 100, 111, 109, 97, 105, 110], 69) /- codomain -/,
  ([99, 111, 108], 70) /- col -/,
  ([99, 111, 108, 103, 114, 111, 117, 112], 71) /- colgroup -/,
  ([99, 111, 109, 112, 108, 101, 120, 101, 115], 72) /- complexes -/,
  ([99, 111, 109, 112, 111, 115, 101], 73) /- compose -/,
  ([99, 111, 110, 100, 105, 116, 105, 111, 110], 74) /- condition -/,
  ([99, 111, 110, 106, 117, 103, 97, 116, 101], 75) /- conjugate -/,
  ([99, 111, 115], 76) /- cos -/,
  ([99, 111, 115, 104], 77) /- cosh -/,
  ([99, 111, 116], 78) /- cot -/,
  ([99, 111, 116, 104], 79) /- coth -/,
  ([99, 115], 80) /- cs -/,
  ([99, 115, 99], 81) /- csc -/,
  ([99, 115, 99, 104], 82) /- csch -/,
  ([99, 115, 121, 109, 98, 111, 108], 83) /- csymbol -/,
  ([99, 117, 114, 108], 84) /- curl -/,
  ([100, 97, 116, 97], 85) /- data -/,
  ([100, 97, 116, 97, 108, 105, 115, 116], 86) /- datalist -/,
  ([100, 100], 87) /- dd -/,
  ([100, 101, 99, 108, 97, 114, 101], 88) /- declare -/,
  ([100, 101, 102, 115], 89) /- defs -/,
  ([100, 101, 103, 114, 101, 101], 90) /- degree -/,
  ([100, 101, 108], 91) /- del -/,
  ([100, 101, 115, 99], 92) /- desc -/,
  ([100, 101, 116, 97, 105, 108, 115], 93) /- details -/,
  ([100, 101, 116, 101, 114, 109, 105, 110, 97, 110, 116], 94) /- determinant -/,
  ([100, 102, 110], 95) /- dfn -/,
  ([100, 105, 97, 108, 111, 103], 96) /- dialog -/,
  ([100, 105, 102, 102], 97) /- diff -/,
  ([100, 105, 114], 98) /- dir -/,
  ([100, 105, 115, 99, 97, 114, 100], 99) /- discard -/,
  ([100, 105, 118], 100) /- div -/,
  ([100, 105, 118, 101, 114, 103, 101, 110, 99, 101], 101) /- divergence -/,
  ([100, 105, 118, 105, 100, 101], 102) /- divide -/,
  ([100, 108], 103) /- dl -/,
  ([100, 111, 109, 97, 105, 110], 104) /- domain -/,
  ([100, 111, 109, 97, 105, 110, 111, 102, 97, 112, 112, 108, 105, 99, 97, 116, 105, 111, 110], 105) /- domainofapplication -/,
  ([100, 116], 106) /- dt -/,
  ([101, 108, 108, 105, 112, 115, 101], 107) /- ellipse -/,
  ([101, 109], 108) /- em -/,
  ([101, 109, 98, 101, 100], 109) /- embed -/,
  ([101, 109, 112, 116, 121, 115, 101, 116], 110) /- emptyset -/,
  ([101, 113], 111) /- eq -/,
  ([101, 113, 117, 105, 118, 97, 108, 101, 110, 116], 112) /- equivalent -/,
  ([101, 117, 108, 101, 114, 103, 97, 109, 109, 97], 113) /- eulergamma -/,
  ([101, 120, 105, 115, 116, 115], 114) /- exists -/,
  ([101, 120, 112], 115) /- exp -/,
  ([101, 120, 112, 111, 110, 101, 110, 116, 105, 97, 108, 101], 116) /- exponentiale -/,
  ([102, 97, 99, 116, 111, 114, 105, 97, 108], 117) /- factorial -/,
  ([102, 97, 99, 116, 111, 114, 111, 102], 118) /- factorof -/,
  ([102, 97, 108, 115, 101], 119) /- false -/,
  ([102, 101, 66, 108, 101, 110, 100], 120) /- feBlend -/,
  ([102, 101, 67, 111, 108, 111, 114, 77, 97, 116, 114, 105, 120], 121) /- feColorMatrix -/,
  ([102, 101, 67, 111, 109, 112, 111, 110, 101, 110, 116, 84, 114, 97, 110, 115, 102, 101, 114], 122) /- feComponentTransfer -/,
  ([102, 101, 67, 111, 109, 112, 111, 115, 105, 116, 101], 123) /- feComposite -/,
  ([102, 101, 67, 111, 110, 118, 111, 108, 118, 101, 77, 97, 116, 114, 105, 120], 124) /- feConvolveMatrix -/,
  ([102, 101, 68, 105, 102, 102, 117, 115, 101, 76, 105, 103, 104, 116, 105, 110, 103], 125) /- feDiffuseLighting -/,
  ([102, 101, 68, 105, 115, 112, 108, 97, 99, 101, 109, 101, 110, 116, 77, 97, 112], 126) /- feDisplacementMap -/,
  ([102, 101, 68, 105, 115, 116, 97, 110, 116, 76, 105, 103, 104, 116], 127) /- feDistantLight -/,
  ([102, 101, 68, 114, 111, 112, 83, 104, 97, 100, 111, 119], 128) /- feDropShadow -/,
  ([102, 101, 70, 108, 111, 111, 100], 129) /- feFlood -/,
  ([102, 101, 70, 117, 110, 99, 65], 130) /- feFuncA -/,
  ([102, 101, 70, 117, 110, 99, 66], 131) /- feFuncB -/,
  ([102, 101, 70, 117, 110, 99, 71], 132) /- feFuncG -/,
  ([102, 101, 70, 117, 110, 99, 82], 133) /- feFuncR -/,
  ([102, 101, 71, 97, 117, 115, 115, 105, 97, 110, 66, 108, 117, 114], 134) /- feGaussianBlur -/,
  ([102, 101, 73, 109, 97, 103, 101], 135) /- feImage -/,
  ([102, 101, 77, 101, 114, 103, 101], 136) /- feMerge -/,
  ([102, 101, 77, 101, 114, 103, 101, 78, 111, 100, 101], 137) /- feMergeNode -/,
  ([102, 101, 77, 111, 114, 112, 104, 111, 108, 111, 103, 121], 138) /- feMorphology -/,
  ([102, 101, 79, 102, 102, 115, 101, 116], 139) /- feOffset -/,
  ([102, 101, 80, 111, 105, 110, 116, 76, 105, 103, 104, 116], 140) /- fePointLight -/,
  ([102, 101, 83, 112, 101, 99, 117, 108, 97, 114, 76, 105, 103, 104, 116, 105, 110, 103], 141) /- feSpecularLighting -/,
  ([102, 101, 83, 112, 111, 116, 76, 105, 103, 104, 116], 142) /- feSpotLight -/,
  ([102, 101, 84, 105, 108, 101], 143) /- feTile -/,
  ([102, 101, 84, 117, 114, 98, 117, 108, 101, 110, 99, 101], 144) /- feTurbulence -/,
  ([102, 101, 98, 108, 101, 110, 100], 145) /- feblend -/,
  ([102, 101, 99, 111, 108, 111, 114, 109, 97, 116, 114, 105, 120], 146) /- fecolormatrix -/,
  ([102, 101, 99, 111, 109, 112, 111, 110, 101, 110, 116, 116, 114, 97, 110, 115, 102, 101, 114], 147) /- fecomponenttransfer -/,
  ([102, 101, 99, 111, 109, 112, 111, 115, 105, 116, 101], 148) /- fecomposite -/,
  ([102, 101, 99, 111, 110, 118, 111, 108, 118, 101, 109, 97, 116, 114, 105, 120], 149) /- feconvolvematrix -/,
  ([102, 101, 100, 105, 102, 102, 117, 115, 101, 108, 105, 103, 104, 116, 105, 110, 103], 150) /- fediffuselighting -/,
  ([102, 101, 100, 105, 115, 112, 108, 97, 99, 101, 109, 101, 110, 116, 109, 97, 112], 151) /- fedisplacementmap -/,
  ([102, 101, 100, 105, 115, 116, 97, 110, 116, 108, 105, 103, 104, 116], 152) /- fedistantlight -/,
  ([102, 101, 100, 114, 111, 112, 115, 104, 97, 100, 111, 119], 153) /- fedropshadow -/,
  ([102, 101, 102, 108, 111, 111, 100], 154) /- feflood -/,
  ([102, 101, 102, 117, 110, 99, 97], 155) /- fefunca -/,
  ([102, 101, 102, 117, 110, 99, 98], 156) /- fefuncb -/,
  ([102, 101, 102, 117, 110, 99, 103], 157) /- fefuncg -/,
  ([102, 101, 102, 117, 110, 99, 114], 158) /- fefuncr -/,
  ([102, 101, 103, 97, 117, 115, 115, 105, 97, 110, 98, 108, 117, 114], 159) /- fegaussianblur -/,
  ([102, 101, 105, 109, 97, 103, 101], 160) /- feimage -/,
  ([102, 101, 109, 101, 114, 103, 101], 161) /- femerge -/,
  ([102, 101, 109, 101, 114, 103, 101, 110, 111, 100, 101], 162) /- femergenode -/,
  ([102, 101, 109, 111, 114, 112, 104, 111, 108, 111, 103, 121], 163) /- femorphology -/,
  ([102, 101, 111, 102, 102, 115, 101, 116], 164) /- feoffset -/,
  ([102, 101, 112, 111, 105, 110, 116, 108, 105, 103, 104, 116], 165) /- fepointlight -/,
  ([102, 101, 115, 112, 101, 99, 117, 108, 97, 114, 108, 105, 103, 104, 116, 105, 110, 103], 166) /- fespecularlighting -/,
  ([102, 101, 115, 112, 111, 116, 108, 105, 103, 104, 116], 167) /- fespotlight -/,
  ([102, 101, 116, 105, 108, 101], 168) /- fetile -/,
  ([102, 101, 116, 117, 114, 98, 117, 108, 101, 110, 99, 101], 169) /- feturbulence -/,
  ([102, 105, 101, 108, 100, 115, 101, 116], 170) /- fieldset -/,
  ([102, 105, 103, 99, 97, 112, 116, 105, 111, 110], 171) /- figcaption -/,
  ([102, 105, 103, 117, 114, 101], 172) /- figure -/,
  ([102, 105, 108, 116, 101, 114], 173) /- filter -/,
  ([102, 108, 111, 111, 114], 174) /- floor -/,
  ([102, 110], 175) /- fn -/,
  ([102, 111, 110, 116], 176) /- font -/,
  ([102, 111, 111, 116, 101, 114], 177) /- footer -/,
  ([102, 111, 114, 97, 108, 108], 178) /- forall -/,
  ([102, 111, 114, 101, 105, 103, 110, 79, 98, 106, 101, 99, 116], 179) /- foreignObject -/,
  ([102, 111, 114, 101, 105, 103, 110, 111, 98, 106, 101, 99, 116], 180) /- foreignobject -/,
  ([102, 111, 114, 109], 181) /- form -/,
  ([102, 114, 97, 109, 101], 182) /- frame -/,
  ([102, 114, 97, 109, 101, 115, 101, 116], 183) /- frameset -/,
  ([103], 184) /- g -/,
  ([103, 99, 100], 185) /- gcd -/,
  ([103, 101, 113], 186) /- geq -/,
  ([103, 108, 121, 112, 104, 82, 101, 102], 187) /- glyphRef -/,
  ([103, 108, 121, 112, 104, 114, 101, 102], 188) /- glyphref -/,
  ([103, 114, 97, 100], 189) /- grad -/,
  ([103, 116], 190) /- gt -/,
  ([104, 49], 191) /- h1 -/,
  ([104, 50], 192) /- h2 -/,
  ([104, 51], 193) /- h3 -/,
  ([104, 52], 194) /- h4 -/,
  ([104, 53], 195) /- h5 -/,
  ([104, 54], 196) /- h6 -/,
  ([104, 101, 97, 100], 197) /- head -/,
  ([104, 101, 97, 100, 101, 114], 198) /- header -/,
  ([104, 103, 114, 111, 117, 112], 199) /- hgroup -/,
  ([104, 114], 200) /- hr -/,
  ([104, 116, 109, 108], 201) /- html -/,
  ([105], 202) /- i -/,
  ([105, 100, 101, 110, 116], 203) /- ident -/,
  ([105, 102, 114, 97, 109, 101], 204) /- iframe -/,
  ([105, 109, 97, 103, 101], 205) /- image -/,
  ([105, 109, 97, 103, 105, 110, 97, 114, 121], 206) /- imaginary -/,
  ([105, 109, 97, 103, 105, 110, 97, 114, 121, 105], 207) /- imaginaryi -/,
  ([105, 109, 103], 208) /- img -/,
  ([105, 109, 112, 108, 105, 101, 115], 209) /- implies -/,
  ([105, 110], 210) /- in -/,
  ([105, 110, 102, 105, 110, 105, 116, 121], 211) /- infinity -/,
  ([105, 110, 112, 117, 116], 212) /- input -/,
  ([105, 110, 115], 213) /- ins -/,
  ([105, 110, 116], 214) /- int -/,
  ([105, 110, 116, 101, 103, 101, 114, 115], 215) /- integers -/,
  ([105, 110, 116, 101, 114, 115, 101, 99, 116], 216) /- intersect -/,
  ([105, 110, 116, 101, 114, 118, 97, 108], 217) /- interval -/,
  ([105, 110, 118, 101, 114, 115, 101], 218) /- inverse -/,
  ([107, 98, 100], 219) /- kbd -/,
  ([107, 101, 121, 103, 101, 110], 220) /- keygen -/,
  ([108, 97, 98, 101, 108], 221) /- label -/,
  ([108, 97, 109, 98, 100, 97], 222) /- lambda -/,
  ([108, 97, 112, 108, 97, 99, 105, 97, 110], 223) /- laplacian -/,
  ([108, 99, 109], 224) /- lcm -/,
  ([108, 101, 103, 101, 110, 100], 225) /- legend -/,
  ([108, 101, 113], 226) /- leq -/,
  ([108, 105], 227) /- li -/,
  ([108, 105, 109, 105, 116], 228) /- limit -/,
  ([108, 105, 110, 101], 229) /- line -/,
  ([108, 105, 110, 101, 97, 114, 71, 114, 97, 100, 105, 101, 110, 116], 230) /- linearGradient -/,
  ([108, 105, 110, 101, 97, 114, 103, 114, 97, 100, 105, 101, 110, 116], 231) /- lineargradient -/,
  ([108, 105, 110, 107], 232) /- link -/,
  ([108, 105, 115, 116], 233) /- list -/,
  ([108, 105, 115, 116, 105, 110, 103], 234) /- listing -/,
  ([108, 110], 235) /- ln -/,
  ([108, 111, 103], 236) /- log -/,
  ([108, 111, 103, 98, 97, 115, 101], 237) /- logbase -/,
  ([108, 111, 119, 108, 105, 109, 105, 116], 238) /- lowlimit -/,
  ([108, 116], 239) /- lt -/,
  ([109, 97, 99, 116, 105, 111, 110], 240) /- maction -/,
  ([109, 97, 105, 110], 241) /- main -/,
  ([109, 97, 108, 105, 103, 110, 103, 114, 111, 117, 112], 242) /- maligngroup -/,
  ([109, 97, 108, 105, 103, 110, 109, 97, 114, 107], 243) /- malignmark -/,
  ([109, 97, 112], 244) /- map -/,
  ([109, 97, 114, 107], 245) /- mark -/,
  ([109, 97, 114, 107, 101, 114], 246) /- marker -/,
  ([109, 97, 114, 113, 117, 101, 101], 247) /- marquee -/,
  ([109, 97, 115, 107], 248) /- mask -/,
  ([109, 97, 116, 104], 249) /- math -/,
  ([109, 97, 116, 114, 105, 120], 250) /- matrix -/,
  ([109, 97, 116, 114, 105, 120, 114, 111, 119], 251) /- matrixrow -/,
  ([109, 97, 120], 252) /- max -/,
  ([109, 101, 97, 110], 253) /- mean -/,
  ([109, 101, 100, 105, 97, 110], 254) /- median -/,
  ([109, 101, 110, 99, 108, 111, 115, 101], 255) /- menclose -/,
  ([109, 101, 110, 117], 256) /- menu -/,
  ([109, 101, 114, 114, 111, 114], 257) /- merror -/,
  ([109, 101, 116, 97], 258) /- meta -/,
  ([109, 101, 116, 97, 100, 97, 116, 97], 259) /- metadata -/,
  ([109, 101, 116, 101, 114], 260) /- meter -/,
  ([109, 102, 101, 110, 99, 101, 100], 261) /- mfenced -/,
  ([109, 102, 114, 97, 99], 262) /- mfrac -/,
  ([109, 103, 108, 121, 112, 104], 263) /- mglyph -/,
  ([109, 105], 264) /- mi -/,
  ([109, 105, 110], 265) /- min -/,
  ([109, 105, 110, 117, 115], 266) /- minus -/,
  ([109, 108, 97, 98, 101, 108, 101, 100, 116, 114], 267) /- mlabeledtr -/,
  ([109, 108, 111, 110, 103, 100, 105, 118], 268) /- mlongdiv -/,
  ([109, 109, 117, 108, 116, 105, 115, 99, 114, 105, 112, 116, 115], 269) /- mmultiscripts -/,
  ([109, 110], 270) /- mn -/,
  ([109, 111], 271) /- mo -/,
  ([109, 111, 100, 101], 272) /- mode -/,
  ([109, 111, 109, 101, 110, 116], 273) /- moment -/,
  ([109, 111, 109, 101, 110, 116, 97, 98, 111, 117, 116], 274) /- momentabout -/,
  ([109, 111, 118, 101, 114], 275) /- mover -/,
  ([109, 112, 97, 100, 100, 101, 100], 276) /- mpadded -/,
  ([109, 112, 97, 116, 104], 277) /- mpath -/,
  ([109, 112, 104, 97, 110, 116, 111, 109], 278) /- mphantom -/,
  ([109, 112, 114, 101, 115, 99, 114, 105, 112, 116, 115], 279) /- mprescripts -/,
  ([109, 114, 111, 111, 116], 280) /- mroot -/,
  ([109, 114, 111, 119], 281) /- mrow -/,
  ([109, 115], 282) /- ms -/,
  ([109, 115, 99, 97, 114, 114, 105, 101, 115], 283) /- mscarries -/,
  ([109, 115, 99, 97, 114, 114, 121], 284) /- mscarry -/,
  ([109, 115, 103, 114, 111, 117, 112], 285) /- msgroup -/,
  ([109, 115, 108, 105, 110, 101], 286) /- msline -/,
  ([109, 115, 112, 97, 99, 101], 287) /- mspace -/,
  ([109, 115, 113, 114, 116], 288) /- msqrt -/,
  ([109, 115, 114, 111, 119], 289) /- msrow -/,
  ([109, 115, 116, 97, 99, 107], 290) /- mstack -/,
  ([109, 115, 116, 121, 108, 101], 291) /- mstyle -/,
  ([109, 115, 117, 98], 292) /- msub -/,
  ([109, 115, 117, 98, 115, 117, 112], 293) /- msubsup -/,
  ([109, 115, 117, 112], 294) /- msup -/,
  ([109, 116, 97, 98, 108, 101], 295) /- mtable -/,
  ([109, 116, 100], 296) /- mtd -/,
  ([109, 116, 101, 120, 116], 297) /- mtext -/,
  ([109, 116, 114], 298) /- mtr -/,
  ([109, 117, 110, 100, 101, 114], 299) /- munder -/,
  ([109, 117, 110, 100, 101, 114, 111, 118, 101, 114], 300) /- munderover -/,
  ([110, 97, 116, 117, 114, 97, 108, 110, 117, 109, 98, 101, 114, 115], 301) /- naturalnumbers -/,
  ([110, 97, 118], 302) /- nav -/,
  ([110, 101, 113], 303) /- neq -/,
  ([110, 111, 98, 114], 304) /- nobr -/,
  ([110, 111, 101, 109, 98, 101, 100], 305) /- noembed -/,
  ([110, 111, 102, 114, 97, 109, 101, 115], 306) /- noframes -/,
  ([110, 111, 110, 101], 307) /- none -/,
  ([110, 111, 115, 99, 114, 105, 112, 116], 308) /- noscript -/,
  ([110, 111, 116], 309) /- not -/,
  ([110, 111, 116, 97, 110, 117, 109, 98, 101, 114], 310) /- notanumber -/,
  ([110, 111, 116, 105, 110], 311) /- notin -/,
  ([110, 111, 116, 112, 114, 115, 117, 98, 115, 101, 116], 312) /- notprsubset -/,
  ([110, 111, 116, 115, 117, 98, 115, 101, 116], 313) /- notsubset -/,
  ([111, 98, 106, 101, 99, 116], 314) /- object -/,
  ([111, 108], 315) /- ol -/,
  ([111, 112, 116, 103, 114, 111, 117, 112], 316) /- optgroup -/,
  ([111, 112, 116, 105, 111, 110], 317) /- option -/,
  ([111, 114], 318) /- or -/,
  ([111, 116, 104, 101, 114, 119, 105, 115, 101], 319) /- otherwise -/,
  ([111, 117, 116, 101, 114, 112, 114, 111, 100, 117, 99, 116], 320) /- outerproduct -/,
  ([111, 117, 116, 112, 117, 116], 321) /- output -/,
  ([112], 322) /- p -/,
  ([112, 97, 114, 97, 109], 323) /- param -/,
  ([112, 97, 114, 116, 105, 97, 108, 100, 105, 102, 102], 324) /- partialdiff -/,
  ([112, 97, 116, 104], 325) /- path -/,
  ([112, 97, 116, 116, 101, 114, 110], 326) /- pattern -/,
  ([112, 105], 327) /- pi -/,
  ([112, 105, 99, 116, 117, 114, 101], 328) /- picture -/,
  ([112, 105, 101, 99, 101], 329) /- piece -/,
  ([112, 105, 101, 99, 101, 119, 105, 115, 101], 330) /- piecewise -/,
  ([112, 108, 97, 105, 110, 116, 101, 120, 116], 331) /- plaintext -/,
  ([112, 108, 117, 115], 332) /- plus -/,
  ([112, 111, 108, 121, 103, 111, 110], 333) /- polygon -/,
  ([112, 111, 108, 121, 108, 105, 110, 101], 334) /- polyline -/,
  ([112, 111, 119, 101, 114], 335) /- power -/,
  ([112, 114, 101], 336) /- pre -/,
  ([112, 114, 105, 109, 101, 115], 337) /- primes -/,
  ([112, 114, 111, 100, 117, 99, 116], 338) /- product -/,
  ([112, 114, 111, 103, 114, 101, 115, 115], 339) /- progress -/,
  ([112, 114, 115, 117, 98, 115, 101, 116], 340) /- prsubset -/,
  ([113], 341) /- q -/,
  ([113, 117, 111, 116, 105, 101, 110, 116], 342) /- quotient -/,
  ([114, 97, 100, 105, 97, 108, 71, 114, 97, 100, 105, 101, 110, 116], 343) /- radialGradient -/,
  ([114, 97, 100, 105, 97, 108, 103, 114, 97, 100, 105, 101, 110, 116], 344) /- radialgradient -/,
  ([114, 97, 116, 105, 111, 110, 97, 108, 115], 345) /- rationals -/,
  ([114, 98], 346) /- rb -/,
  ([114, 101, 97, 108], 347) /- real -/,
  ([114, 101, 97, 108, 115], 348) /- reals -/,
  ([114, 101, 99, 116], 349) /- rect -/,
  ([114, 101, 108, 110], 350) /- reln -/,
  ([114, 101, 109], 351) /- rem -/,
  ([114, 111, 111, 116], 352) /- root -/,
  ([114, 112], 353) /- rp -/,
  ([114, 116], 354) /- rt -/,
  ([114, 116, 99], 355) /- rtc -/,
  ([114, 117, 98, 121], 356) /- ruby -/,
  ([115], 357) /- s -/,
  ([115, 97, 109, 112], 358) /- samp -/,
  ([115, 99, 97, 108, 97, 114, 112, 114, 111, 100, 117, 99, 116], 359) /- scalarproduct -/,
  ([115, 99, 114, 105, 112, 116], 360) /- script -/,
  ([115, 100, 101, 118], 361) /- sdev -/,
  ([115, 101, 99], 362) /- sec -/,
  ([115, 101, 99, 104], 363) /- sech -/,
  ([115, 101, 99, 116, 105, 111, 110], 364) /- section -/,
  ([115, 101, 108, 101, 99, 116], 365) /- select -/,
  ([115, 101, 108, 101, 99, 116, 111, 114], 366) /- selector -/,
  ([115, 101, 109, 97, 110, 116, 105, 99, 115], 367) /- semantics -/,
  ([115, 101, 112], 368) /- sep -/,
  ([115, 101, 116], 369) /- set -/,
  ([115, 101, 116, 100, 105, 102, 102], 370) /- setdiff -/,
  ([115, 104, 97, 114, 101], 371) /- share -/,
  ([115, 105, 110], 372) /- sin -/,
  ([115, 105, 110, 104], 373) /- sinh -/,
  ([115, 108, 111, 116], 374) /- slot -/,
  ([115, 109, 97, 108, 108], 375) /- small -/,
  ([115, 111, 117, 114, 99, 101], 376) /- source -/,
  ([115, 112, 97, 110], 377) /- span -/,
  ([115, 116, 111, 112], 378) /- stop -/,
  ([115, 116, 114, 105, 107, 101], 379) /- strike -/,
  ([115, 116, 114, 111, 110, 103], 380) /- strong -/,
  ([115, 116, 121, 108, 101], 381) /- style -/,
  ([115, 117, 98], 382) /- sub -/,
  ([115, 117, 98, 115, 101, 116], 383) /- subset -/,
  ([115, 117, 109], 384) /- sum -/,
  ([115, 117, 109, 109, 97, 114, 121], 385) /- summary -/,
  ([115, 117, 112], 386) /- sup -/,
  ([115, 118, 103], 387) /- svg -/,
  ([115, 119, 105, 116, 99, 104], 388) /- switch -/,
  ([115, 121, 109, 98, 111, 108], 389) /- symbol -/,
  ([116, 97, 98, 108, 101], 390) /- table -/,
  ([116, 97, 110], 391) /- tan -/,
  ([116, 97, 110, 104], 392) /- tanh -/,
  ([116, 98, 111, 100, 121], 393) /- tbody -/,
  ([116, 100], 394) /- td -/,
  ([116, 101, 109, 112, 108, 97, 116, 101], 395) /- template -/,
  ([116, 101, 110, 100, 115, 116, 111], 396) /- tendsto -/,
  ([116, 101, 120, 116], 397) /- text -/,
  ([116, 101, 120, 116, 80, 97, 116, 104], 398) /- textPath -/,
  ([116, 101, 120, 116, 97, 114, 101, 97], 399) /- textarea -/,
  ([116, 101, 120, 116, 112, 97, 116, 104], 400) /- textpath -/,
  ([116, 102, 111, 111, 116], 401) /- tfoot -/,
  ([116, 104], 402) /- th -/,
  ([116, 104, 101, 97, 100], 403) /- thead -/,
  ([116, 105, 109, 101], 404) /- time -/,
  ([116, 105, 109, 101, 115], 405) /- times -/,
  ([116, 105, 116, 108, 101], 406) /- title -/,
  ([116, 114], 407) /- tr -/,
  ([116, 114, 97, 99, 107], 408) /- track -/,
  ([116, 114, 97, 110, 115, 112, 111, 115, 101], 409) /- transpose -/,
  ([116, 114, 117, 101], 410) /- true -/,
  ([116, 115, 112, 97, 110], 411) /- tspan -/,
  ([116, 116], 412) /- tt -/,
  ([117], 413) /- u -/,
  ([117, 108], 414) /- ul -/,
  ([117, 110, 105, 111, 110], 415) /- union -/,
  ([117, 112, 108, 105, 109, 105, 116], 416) /- uplimit -/,
  ([117, 115, 101], 417) /- use -/,
  ([118, 97, 114], 418) /- var -/,
  ([118, 97, 114, 105, 97, 110, 99, 101], 419) /- variance -/,
  ([118, 101, 99, 116, 111, 114], 420) /- vector -/,
  ([118, 101, 99, 116, 111, 114, 112, 114, 111, 100, 117, 99, 116], 421) /- vectorproduct -/,
  ([118, 105, 100, 101, 111], 422) /- video -/,
  ([118, 105, 101, 119], 423) /- view -/,
  ([119, 98, 114], 424) /- wbr -/,
  ([120, 109, 112], 425) /- xmp -/,
  ([120, 111, 114], 426) /- xor -/
]

/-- `tag_name_tbl` (atom_tbl.cpp:1081-1129). -/
def tagNames : List (List Nat) := [
  [] /-  -/,
  [97] /- a -/,
  [97, 98, 98, 114] /- abbr -/,
  [97, 98, 115] /- abs -/,
  [97, 100, 100, 114, 101, 115, 115] /- address -/,
  [97, 108, 116, 71, 108, 121, 112, 104] /- altGlyph -/,
  [97, 108, 116, 71, 108, 121, 112, 104, 68, 101, 102] /- altGlyphDef -/,
  [97, 108, 116, 71, 108, 121, 112, 104, 73, 116, 101, 109] /- altGlyphItem -/,
  [97, 108, 116, 103, 108, 121, 112, 104] /- altglyph -/,
  [97, 108, 116, 103, 108, 121, 112, 104, 100, 101, 102] /- altglyphdef -/,
  [97, 108, 116, 103, 108, 121, 112, 104, 105, 116, 101, 109] /- altglyphitem -/,
  [97, 110, 100] /- and -/,
  [97, 110, 105, 109, 97, 116, 101] /- animate -/,
  [97, 110, 105, 109, 97, 116, 101, 67, 111, 108, 111, 114] /- animateColor -/,
  [97, 110, 105, 109, 97, 116, 101, 77, 111, 116, 105, 111, 110] /- animateMotion -/,
  [97, 110, 105, 109, 97, 116, 101, 84, 114, 97, 110, 115, 102, 111, 114, 109] /- animateTransform -/,
  [97, 110, 105, 109, 97, 116, 101, 99, 111, 108, 111, 114] /- animatecolor -/,
  [97, 110, 105, 109, 97, 116, 101, 109, 111, 116, 105, 111, 110] /- animatemotion -/,
  [97, 110, 105, 109, 97, 116, 101, 116, 114, 97, 110, 115, 102, 111, 114, 109] /- animatetransform -/,
  [97, 110, 110, 111, 116, 97, 116, 105, 111, 110] /- annotation -/,
  [97, 110, 110, 111, 116, 97, 116, 105, 111, 110, 45, 120, 109, 108] /- annotation-xml -/,
  [97, 112, 112, 108, 101, 116] /- applet -/,
  [97, 112, 112, 108, 121] /- apply -/,
  [97, 112, 112, 114, 111, 120] /- approx -/,
  [97, 114, 99, 99, 111, 115] /- arccos -/,
  [97, 114, 99, 99, 111, 115, 104] /- arccosh -/,
  [97, 114, 99, 99, 111, 116] /- arccot -/,
  [97, 114, 99, 99, 111, 116, 104] /- arccoth -/,
  [97, 114, 99, 99, 115, 99] /- arccsc -/,
  [97, 114, 99, 99, 115, 99, 104] /- arccsch -/,
  [97, 114, 99, 115, 101, 99] /- arcsec -/,
  [97, 114, 99, 115, 101, 99, 104] /- arcsech -/,
  [97, 114, 99, 115, 105, 110] /- arcsin -/,
  [97, 114, 99, 115, 105, 110, 104] /- arcsinh -/,
  [97, 114, 99, 116, 97, 110] /- arctan -/,
  [97, 114, 99, 116, 97, 110, 104] /- arctanh -/,
  [97, 114, 101, 97] /- area -/,
  [97, 114, 103] /- arg -/,
  [97, 114, 116, 105, 99, 108, 101] /- article -/,
  [97, 115, 105, 100, 101] /- aside -/,
  [97, 117, 100, 105, 111] /- audio -/,
  [98] /- b -/,
  [98, 97, 115, 101] /- base -/,
  [98, 97, 115, 101, 102, 111, 110, 116] /- basefont -/,
  [98, 100, 105] /- bdi -/,
  [98, 100, 111] /- bdo -/,
  [98, 103, 115, 111, 117, 110, 100] /- bgsound -/,
  [98, 105, 103] /- big -/,
  [98, 105, 110, 100] /- bind -/,
  [98, 108, 111, 99, 107, 113, 117, 111, 116, 101] /- blockquote -/,
  [98, 111, 100, 121] /- body -/,
  [98, 114] /- br -/,
  [98, 117, 116, 116, 111, 110] /- button -/,
  [98, 118, 97, 114] /- bvar -/,
  [99, 97, 110, 118, 97, 115] /- canvas -/,
  [99, 97, 112, 116, 105, 111, 110] /- caption -/,
  [99, 97, 114, 100] /- card -/,
  [99, 97, 114, 116, 101, 115, 105, 97, 110, 112, 114, 111, 100, 117, 99, 116] /- cartesianproduct -/,
  [99, 98, 121, 116, 101, 115] /- cbytes -/,
  [99, 101, 105, 108, 105, 110, 103] /- ceiling -/,
  [99, 101, 110, 116, 101, 114] /- center -/,
  [99, 101, 114, 114, 111, 114] /- cerror -/,
  [99, 105] /- ci -/,
  [99, 105, 114, 99, 108, 101] /- circle -/,
  [99, 105, 116, 101] /- cite -/,
  [99, 108, 105, 112, 80, 97, 116, 104] /- clipPath -/,
  [99, 108, 105, 112, 112, 97, 116, 104] /- clippath -/,
  [99, 110] /- cn -/,
  [99, 111, 100, 101] /- code -/,
  [99, 111, 100, 111, 109, 97, 105, 110] /- codomain -/,
  [99, 111, 108] /- col -/,
  [99, 111, 108, 103, 114, 111, 117, 112] /- colgroup -/,
  [99, 111, 109, 112, 108, 101, 120, 101, 115] /- complexes -/,
  [99, 111, 109, 112, 111, 115, 101] /- compose -/,
  [99, 111, 110, 100, 105, 116, 105, 111, 110] /- condition -/,
  [99, 111, 110, 106, 117, 103, 97, 116, 101] /- conjugate -/,
  [99, 111, 115] /- cos -/,
  [99, 111, 115, 104] /- cosh -/,
  [99, 111, 116] /- cot -/,
  [99, 111, 116, 104] /- coth -/,
  [99, 115] /- cs -/,
  [99, 115, 99] /- csc -/,
  [99, 115, 99, 104] /- csch -/,
  [99, 115, 121, 109, 98, 111, 108] /- csymbol -/,
  [99, 117, 114, 108] /- curl -/,
  [100, 97, 116, 97] /- data -/,
  [100, 97, 116, 97, 108, 105, 115, 116] /- datalist -/,
  [100, 100] /- dd -/,
  [100, 101, 99, 108, 97, 114, 101] /- declare -/,
  [100, 101, 102, 115] /- defs -/,
  [100, 101, 103, 114, 101, 101] /- degree -/,
  [100, 101, 108] /- del -/,
  [100, 101, 115, 99] /- desc -/,
  [100, 101, 116, 97, 105, 108, 115] /- details -/,
  [100, 101, 116, 101, 114, 109, 105, 110, 97, 110, 116] /- determinant -/,
  [100, 102, 110] /- dfn -/,
  [100, 105, 97, 108, 111, 103] /- dialog -/,
  [100, 105, 102, 102] /- diff -/,
  [100, 105, 114] /- dir -/,
  [100, 105, 115, 99, 97, 114, 100] /- discard -/,
  [100, 105, 118] /- div -/,
  [100, 105, 118, 101, 114, 103, 101, 110, 99, 101] /- divergence -/,
  [100, 105, 118, 105, 100, 101] /- divide -/,
  [100, 108] /- dl -/,
  [100, 111, 109, 97, 105, 110] /- domain -/,
  [100, 111, 109, 97, 105, 110, 111, 102, 97, 112, 112, 108, 105, 99, 97, 116, 105, 111, 110] /- domainofapplication -/,
  [100, 116] /- dt -/,
  [101, 108, 108, 105, 112, 115, 101] /- ellipse -/,
  [101, 109] /- em -/,
  [101, 109, 98, 101, 100] /- embed -/,
  [101, 109, 112, 116, 121, 115, 101, 116] /- emptyset -/,
  [101, 113] /- eq -/,
  [101, 113, 117, 105, 118, 97, 108, 101, 110, 116] /- equivalent -/,
  [101, 117, 108, 101, 114, 103, 97, 109, 109, 97] /- eulergamma -/,
  [101, 120, 105, 115, 116, 115] /- exists -/,
  [101, 120, 112] /- exp -/,
  [101, 120, 112, 111, 110, 101, 110, 116, 105, 97, 108, 101] /- exponentiale -/,
  [102, 97, 99, 116, 111, 114, 105, 97, 108] /- factorial -/,
  [102, 97, 99, 116, 111, 114, 111, 102] /- factorof -/,
  [102, 97, 108, 115, 101] /- false -/,
  [102, 101, 66, 108, 101, 110, 100] /- feBlend -/,
  [102, 101, 67, 111, 108, 111, 114, 77, 97, 116, 114, 105, 120] /- feColorMatrix -/,
  [102, 101, 67, 111, 109, 112, 111, 110, 101, 110, 116, 84, 114, 97, 110, 115, 102, 101, 114] /- feComponentTransfer -/,
  [102, 101, 67, 111, 109, 112, 111, 115, 105, 116, 101] /- feComposite -/,
  [102, 101, 67, 111, 110, 118, 111, 108, 118, 101, 77, 97, 116, 114, 105, 120] /- feConvolveMatrix -/,
  [102, 101, 68, 105, 102, 102, 117, 115, 101, 76, 105, 103, 104, 116, 105, 110, 103] /- feDiffuseLighting -/,
  [102, 101, 68, 105, 115, 112, 108, 97, 99, 101, 109, 101, 110, 116, 77, 97, 112] /- feDisplacementMap -/,
  [102, 101, 68, 105, 115, 116, 97, 110, 116, 76, 105, 103, 104, 116] /- feDistantLight -/,
  [102, 101, 68, 114, 111, 112, 83, 104, 97, 100, 111, 119] /- feDropShadow -/,
  [102, 101, 70, 108, 111, 111, 100] /- feFlood -/,
  [102, 101, 70, 117, 110, 99, 65] /- feFuncA -/,
  [102, 101, 70, 117, 110, 99, 66] /- feFuncB -/,
  [102, 101, 70, 117, 110, 99, 71] /- feFuncG -/,
  [102, 101, 70, 117, 110, 99, 82] /- feFuncR -/,
  [102, 101, 71, 97, 117, 115, 115, 105, 97, 110, 66, 108, 117, 114] /- feGaussianBlur -/,
  [102, 101, 73, 109, 97, 103, 101] /- feImage -/,
  [102, 101, 77, 101, 114, 103, 101] /- feMerge -/,
  [102, 101, 77, 101, 114, 103, 101, 78, 111, 100, 101] /- feMergeNode -/,
  [102, 101, 77, 111, 114, 112, 104, 111, 108, 111, 103, 121] /- feMorphology -/,
  [102, 101, 79, 102, 102, 115, 101, 116] /- feOffset -/,
  [102, 101, 80, 111, 105, 110, 116, 76, 105, 103, 104, 116] /- fePointLight -/,
  [102, 101, 83, 112, 101, 99, 117, 108, 97, 114, 76, 105, 103, 104, 116, 105, 110, 103] /- feSpecularLighting -/,
  [102, 101, 83, 112, 111, 116, 76, 105, 103, 104, 116] /- feSpotLight -/,
  [102, 101, 84, 105, 108, 101] /- feTile -/,
  [102, 101, 84, 117, 114, 98, 117, 108, 101, 110, 99, 101] /- feTurbulence -/,
  [102, 101, 98, 108, 101, 110, 100] /- feblend -/,
  [102, 101, 99, 111, 108, 111, 114, 109, 97, 116, 114, 105, 120] /- fecolormatrix -/,
  [102, 101, 99, 111, 109, 112, 111, 110, 101, 110, 116, 116, 114, 97, 110, 115, 102, 101, 114] /- fecomponenttransfer -/,
  [102, 101, 99, 111, 109, 112, 111, 115, 105, 116, 101] /- fecomposite -/,
  [102, 101, 99, 111, 110, 118, 111, 108, 118, 101, 109, 97, 116, 114, 105, 120] /- feconvolvematrix -/,
  [102, 101, 100, 105, 102, 102, 117, 115, 101, 108, 105, 103, 104, 116, 105, 110, 103] /- fediffuselighting -/,
  [102, 101, 100, 105, 115, 112, 108, 97, 99, 101, 109, 101, 110, 116, 109, 97, 112] /- fedisplacementmap -/,
  [102, 101, 100, 105, 115, 116, 97, 110, 116, 108, 105, 103, 104, 116] /- fedistantlight -/,
  [102, 101, 100, 114, 111, 112, 115, 104, 97, 100, 111, 119] /- fedropshadow -/,
  [102, 101, 102, 108, 111, 111, 100] /- feflood -/,
  [102, 101, 102, 117, 110, 99, 97] /- fefunca -/,
  [102, 101, 102, 117, 110, 99, 98] /- fefuncb -/,
  [102, 101, 102, 117, 110, 99, 103] /- fefuncg -/,
  [102, 101, 102, 117, 110, 99, 114] /- fefuncr -/,
  [102, 101, 103, 97, 117, 115, 115, 105, 97, 110, 98, 108, 117, 114] /- fegaussianblur -/,
  [102, 101, 105, 109, 97, 103, 101] /- feimage -/,
  [102, 101, 109, 101, 114, 103, 101] /- femerge -/,
  [102, 101, 109, 101, 114, 103, 101, 110, 111, 100, 101] /- femergenode -/,
  [102, 101, 109, 111, 114, 112, 104, 111, 108, 111, 103, 121] /- femorphology -/,
  [102, 101, 111, 102, 102, 115, 101, 116] /- feoffset -/,
  [102, 101, 112, 111, 105, 110, 116, 108, 105, 103, 104, 116] /- fepointlight -/,
  [102, 101, 115, 112, 101, 99, 117, 108, 97, 114, 108, 105, 103, 104, 116, 105, 110, 103] /- fespecularlighting -/,
  [102, 101, 115, 112, 111, 116, 108, 105, 103, 104, 116] /- fespotlight -/,
  [102, 101, 116, 105, 108, 101] /- fetile -/,
  [102, 101, 116, 117, 114, 98, 117, 108, 101, 110, 99, 101] /- feturbulence -/,
  [102, 105, 101, 108, 100, 115, 101, 116] /- fieldset -/,
  [102, 105, 103, 99, 97, 112, 116, 105, 111, 110] /- figcaption -/,
  [102, 105, 103, 117, 114, 101] /- figure -/,
  [102, 105, 108, 116, 101, 114] /- filter -/,
  [102, 108, 111, 111, 114] /- floor -/,
  [102, 110] /- fn -/,
  [102, 111, 110, 116] /- font -/,
  [102, 111, 111, 116, 101, 114] /- footer -/,
  [102, 111, 114, 97, 108, 108] /- forall -/,
  [102, 111, 114, 101, 105, 103, 110, 79, 98, 106, 101, 99, 116] /- foreignObject -/,
  [102, 111, 114, 101, 105, 103, 110, 111, 98, 106, 101, 99, 116] /- foreignobject -/,
  [102, 111, 114, 109] /- form -/,
  [102, 114, 97, 109, 101] /- frame -/,
  [102, 114, 97, 109, 101, 115, 101, 116] /- frameset -/,
  [103] /- g -/,
  [103, 99, 100] /- gcd -/,
  [103, 101, 113] /- geq -/,
  [103, 108, 121, 112, 104, 82, 101, 102] /- glyphRef -/,
  [103, 108, 121, 112, 104, 114, 101, 102] /- glyphref -/,
  [103, 114, 97, 100] /- grad -/,
  [103, 116] /- gt -/,
  [104, 49] /- h1 -/,
  [104, 50] /- h2 -/,
  [104, 51] /- h3 -/,
  [104, 52] /- h4 -/,
  [104, 53] /- h5 -/,
  [104, 54] /- h6 -/,
  [104, 101, 97, 100] /- head -/,
  [104, 101, 97, 100, 101, 114] /- header -/,
  [104, 103, 114, 111, 117, 112] /- hgroup -/,
  [104, 114] /- hr -/,
  [104, 116, 109, 108] /- html -/,
  [105] /- i -/,
  [105, 100, 101, 110, 116] /- ident -/,
  [105, 102, 114, 97, 109, 101] /- iframe -/,
  [105, 109, 97, 103, 101] /- image -/,
  [105, 109, 97, 103, 105, 110, 97, 114, 121] /- imaginary -/,
  [105, 109, 97, 103, 105, 110, 97, 114, 121, 105] /- imaginaryi -/,
  [105, 109, 103] /- img -/,
  [105, 109, 112, 108, 105, 101, 115] /- implies -/,
  [105, 110] /- in -/,
  [105, 110, 102, 105, 110, 105, 116, 121] /- infinity -/,
  [105, 110, 112, 117, 116] /- input -/,
  [105, 110, 115] /- ins -/,
  [105, 110, 116] /- int -/,
  [105, 110, 116, 101, 103, 101, 114, 115] /- integers -/,
  [105, 110, 116, 101, 114, 115, 101, 99, 116] /- intersect -/,
  [105, 110, 116, 101, 114, 118, 97, 108] /- interval -/,
  [105, 110, 118, 101, 114, 115, 101] /- inverse -/,
  [107, 98, 100] /- kbd -/,
  [107, 101, 121, 103, 101, 110] /- keygen -/,
  [108, 97, 98, 101, 108] /- label -/,
  [108, 97, 109, 98, 100, 97] /- lambda -/,
  [108, 97, 112, 108, 97, 99, 105, 97, 110] /- laplacian -/,
  [108, 99, 109] /- lcm -/,
  [108, 101, 103, 101, 110, 100] /- legend -/,
  [108, 101, 113] /- leq -/,
  [108, 105] /- li -/,
  [108, 105, 109, 105, 116] /- limit -/,
  [108, 105, 110, 101] /- line -/,
  [108, 105, 110, 101, 97, 114, 71, 114, 97, 100, 105, 101, 110, 116] /- linearGradient -/,
  [108, 105, 110, 101, 97, 114, 103, 114, 97, 100, 105, 101, 110, 116] /- lineargradient -/,
  [108, 105, 110, 107] /- link -/,
  [108, 105, 115, 116] /- list -/,
  [108, 105, 115, 116, 105, 110, 103] /- listing -/,
  [108, 110] /- ln -/,
  [108, 111, 103] /- log -/,
  [108, 111, 103, 98, 97, 115, 101] /- logbase -/,
  [108, 111, 119, 108, 105, 109, 105, 116] /- lowlimit -/,
  [108, 116] /- lt -/,
  [109, 97, 99, 116, 105, 111, 110] /- maction -/,
  [109, 97, 105, 110] /- main -/,
  [109, 97, 108, 105, 103, 110, 103, 114, 111, 117, 112] /- maligngroup -/,
  [109, 97, 108, 105, 103, 110, 109, 97, 114, 107] /- malignmark -/,
  [109, 97, 112] /- map -/,
  [109, 97, 114, 107] /- mark -/,
  [109, 97, 114, 107, 101, 114] /- marker -/,
  [109, 97, 114, 113, 117, 101, 101] /- marquee -/,
  [109, 97, 115, 107] /- mask -/,
  [109, 97, 116, 104] /- math -/,
  [109, 97, 116, 114, 105, 120] /- matrix -/,
  [109, 97, 116, 114, 105, 120, 114, 111, 119] /- matrixrow -/,
  [109, 97, 120] /- max -/,
  [109, 101, 97, 110] /- mean -/,
  [109, 101, 100, 105, 97, 110] /- median -/,
  [109, 101, 110, 99, 108, 111, 115, 101] /- menclose -/,
  [109, 101, 110, 117] /- menu -/,
  [109, 101, 114, 114, 111, 114] /- merror -/,
  [109, 101, 116, 97] /- meta -/,
  [109, 101, 116, 97, 100, 97, 116, 97] /- metadata -/,
  [109, 101, 116, 101, 114] /- meter -/,
  [109, 102, 101, 110, 99, 101, 100] /- mfenced -/,
  [109, 102, 114, 97, 99] /- mfrac -/,
  [109, 103, 108, 121, 112, 104] /- mglyph -/,
  [109, 105] /- mi -/,
  [109, 105, 110] /- min -/,
  [109, 105, 110, 117, 115] /- minus -/,
  [109, 108, 97, 98, 101, 108, 101, 100, 116, 114] /- mlabeledtr -/,
  [109, 108, 111, 110, 103, 100, 105, 118] /- mlongdiv -/,
  [109, 109, 117, 108, 116, 105, 115, 99, 114, 105, 112, 116, 115] /- mmultiscripts -/,
  [109, 110] /- mn -/,
  [109, 111] /- mo -/,
  [109, 111, 100, 101] /- mode -/,
  [109, 111, 109, 101, 110, 116] /- moment -/,
  [109, 111, 109, 101, 110, 116, 97, 98, 111, 117, 116] /- momentabout -/,
  [109, 111, 118, 101, 114] /- mover -/,
  [109, 112, 97, 100, 100, 101, 100] /- mpadded -/,
  [109, 112, 97, 116, 104] /- mpath -/,
  [109, 112, 104, 97, 110, 116, 111, 109] /- mphantom -/,
  [109, 112, 114, 101, 115, 99, 114, 105, 112, 116, 115] /- mprescripts -/,
  [109, 114, 111, 111, 116] /- mroot -/,
  [109, 114, 111, 119] /- mrow -/,
  [109, 115] /- ms -/,
  [109, 115, 99, 97, 114, 114, 105, 101, 115] /- mscarries -/,
  [109, 115, 99, 97, 114, 114, 121] /- mscarry -/,
  [109, 115, 103, 114, 111, 117, 112] /- msgroup -/,
  [109, 115, 108, 105, 110, 101] /- msline -/,
  [109, 115, 112, 97, 99, 101] /- mspace -/,
  [109, 115, 113, 114, 116] /- msqrt -/,
  [109, 115, 114, 111, 119] /- msrow -/,
  [109, 115, 116, 97, 99, 107] /- mstack -/,
  [109, 115, 116, 121, 108, 101] /- mstyle -/,
  [109, 115, 117, 98] /- msub -/,
  [109, 115, 117, 98, 115, 117, 112] /- msubsup -/,
  [109, 115, 117, 112] /- msup -/,
  [109, 116, 97, 98, 108, 101] /- mtable -/,
  [109, 116, 100] /- mtd -/,
  [109, 116, 101, 120, 116] /- mtext -/,
  [109, 116, 114] /- mtr -/,
  [109, 117, 110, 100, 101, 114] /- munder -/,
  [109, 117, 110, 100, 101, 114, 111, 118, 101, 114] /- munderover -/,
  [110, 97, 116, 117, 114, 97, 108, 110, 117, 109, 98, 101, 114, 115] /- naturalnumbers -/,
  [110, 97, 118] /- nav -/,
  [110, 101, 113] /- neq -/,
  [110, 111, 98, 114] /- nobr -/,
  [110, 111, 101, 109, 98, 101, 100] /- noembed -/,
  [110, 111, 102, 114, 97, 109, 101, 115] /- noframes -/,
  [110, 111, 110, 101] /- none -/,
  [110, 111, 115, 99, 114, 105, 112, 116] /- noscript -/,
  [110, 111, 116] /- not -/,
  [110, 111, 116, 97, 110, 117, 109, 98, 101, 114] /- notanumber -/,
  [110, 111, 116, 105, 110] /- notin -/,
  [110, 111, 116, 112, 114, 115, 117, 98, 115, 101, 116] /- notprsubset -/,
  [110, 111, 116, 115, 117, 98, 115, 101, 116] /- notsubset -/,
  [111, 98, 106, 101, 99, 116] /- object -/,
  [111, 108] /- ol -/,
  [111, 112, 116, 103, 114, 111, 117, 112] /- optgroup -/,
  [111, 112, 116, 105, 111, 110] /- option -/,
  [111, 114] /- or -/,
  [111, 116, 104, 101, 114, 119, 105, 115, 101] /- otherwise -/,
  [111, 117, 116, 101, 114, 112, 114, 111, 100, 117, 99, 116] /- outerproduct -/,
  [111, 117, 116, 112, 117, 116] /- output -/,
  [112] /- p -/,
  [112, 97, 114, 97, 109] /- param -/,
  [112, 97, 114, 116, 105, 97, 108, 100, 105, 102, 102] /- partialdiff -/,
  [112, 97, 116, 104] /- path -/,
  [112, 97, 116, 116, 101, 114, 110] /- pattern -/,
  [112, 105] /- pi -/,
  [112, 105, 99, 116, 117, 114, 101] /- picture -/,
  [112, 105, 101, 99, 101] /- piece -/,
  [112, 105, 101, 99, 101, 119, 105, 115, 101] /- piecewise -/,
  [112, 108, 97, 105, 110, 116, 101, 120, 116] /- plaintext -/,
  [112, 108, 117, 115] /- plus -/,
  [112, 111, 108, 121, 103, 111, 110] /- polygon -/,
  [112, 111, 108, 121, 108, 105, 110, 101] /- polyline -/,
  [112, 111, 119, 101, 114] /- power -/,
  [112, 114, 101] /- pre -/,
  [112, 114, 105, 109, 101, 115] /- primes -/,
  [112, 114, 111, 100, 117, 99, 116] /- product -/,
  [112, 114, 111, 103, 114, 101, 115, 115] /- progress -/,
  [112, 114, 115, 117, 98, 115, 101, 116] /- prsubset -/,
  [113] /- q -/,
  [113, 117, 111, 116, 105, 101, 110, 116] /- quotient -/,
  [114, 97, 100, 105, 97, 108, 71, 114, 97, 100, 105, 101, 110, 116] /- radialGradient -/,
  [114, 97, 100, 105, 97, 108, 103, 114, 97, 100, 105, 101, 110, 116] /- radialgradient -/,
  [114, 97, 116, 105, 111, 110, 97, 108, 115] /- rationals -/,
  [114, 98] /- rb -/,
  [114, 101, 97, 108] /- real -/,
  [114, 101, 97, 108, 115] /- reals -/,
  [114, 101, 99, 116] /- rect -/,
  [114, 101, 108, 110] /- reln -/,
  [114, 101, 109] /- rem -/,
  [114, 111, 111, 116] /- root -/,
  [114, 112] /- rp -/,
  [114, 116] /- rt -/,
  [114, 116, 99] /- rtc -/,
  [114, 117, 98, 121] /- ruby -/,
  [115] /- s -/,
  [115, 97, 109, 112] /- samp -/,
  [115, 99, 97, 108, 97, 114, 112, 114, 111, 100, 117, 99, 116] /- scalarproduct -/,
  [115, 99, 114, 105, 112, 116] /- script -/,
  [115, 100, 101, 118] /- sdev -/,
  [115, 101, 99] /- sec -/,
  [115, 101, 99, 104] /- sech -/,
  [115, 101, 99, 116, 105, 111, 110] /- section -/,
  [115, 101, 108, 101, 99, 116] /- select -/,
  [115, 101, 108, 101, 99, 116, 111, 114] /- selector -/,
  [115, 101, 109, 97, 110, 116, 105, 99, 115] /- semantics -/,
  [115, 101, 112] /- sep -/,
  [115, 101, 116] /- set -/,
  [115, 101, 116, 100, 105, 102, 102] /- setdiff -/,
  [115, 104, 97, 114, 101] /- share -/,
  [115, 105, 110] /- sin -/,
  [115, 105, 110, 104] /- sinh -/,
  [115, 108, 111, 116] /- slot -/,
  [115, 109, 97, 108, 108] /- small -/,
  [115, 111, 117, 114, 99, 101] /- source -/,
  [115, 112, 97, 110] /- span -/,
  [115, 116, 111, 112] /- stop -/,
  [115, 116, 114, 105, 107, 101] /- strike -/,
  [115, 116, 114, 111, 110, 103] /- strong -/,
  [115, 116, 121, 108, 101] /- style -/,
  [115, 117, 98] /- sub -/,
  [115, 117, 98, 115, 101, 116] /- subset -/,
  [115, 117, 109] /- sum -/,
  [115, 117, 109, 109, 97, 114, 121] /- summary -/,
  [115, 117, 112] /- sup -/,
  [115, 118, 103] /- svg -/,
  [115, 119, 105, 116, 99, 104] /- switch -/,
  [115, 121, 109, 98, 111, 108] /- symbol -/,
  [116, 97, 98, 108, 101] /- table -/,
  [116, 97, 110] /- tan -/,
  [116, 97, 110, 104] /- tanh -/,
  [116, 98, 111, 100, 121] /- tbody -/,
  [116, 100] /- td -/,
  [116, 101, 109, 112, 108, 97, 116, 101] /- template -/,
  [116, 101, 110, 100, 115, 116, 111] /- tendsto -/,
  [116, 101, 120, 116] /- text -/,
  [116, 101, 120, 116, 80, 97, 116, 104] /- textPath -/,
  [116, 101, 120, 116, 97, 114, 101, 97] /- textarea -/,
  [116, 101, 120, 116, 112, 97, 116, 104] /- textpath -/,
  [116, 102, 111, 111, 116] /- tfoot -/,
  [116, 104] /- th -/,
  [116, 104, 101, 97, 100] /- thead -/,
  [116, 105, 109, 101] /- time -/,
  [116, 105, 109, 101, 115] /- times -/,
  [116, 105, 116, 108, 101] /- title -/,
  [116, 114] /- tr -/,
  [116, 114, 97, 99, 107] /- track -/,
  [116, 114, 97, 110, 115, 112, 111, 115, 101] /- transpose -/,
  [116, 114, 117, 101] /- true -/,
  [116, 115, 112, 97, 110] /- tspan -/,
  [116, 116] /- tt -/,
  [117] /- u -/,
  [117, 108] /- ul -/,
  [117, 110, 105, 111, 110] /- union -/,
  [117, 112, 108, 105, 109, 105, 116] /- uplimit -/,
  [117, 115, 101] /- use -/,
  [118, 97, 114] /- var -/,
  [118, 97, 114, 105, 97, 110, 99, 101] /- variance -/,
  [118, 101, 99, 116, 111, 114] /- vector -/,
  [118, 101, 99, 116, 111, 114, 112, 114, 111, 100, 117, 99, 116] /- vectorproduct -/,
  [118, 105, 100, 101, 111] /- video -/,
  [118, 105, 101, 119] /- view -/,
  [119, 98, 114] /- wbr -/,
  [120, 109, 112] /- xmp -/,
  [120, 111, 114] /- xor -/
]

/-- `tag_name` (atom_defs.hpp:18-446): identifier and value. -/
def tagEnum : List (List Nat × Nat) := [
  ([65], 1) /- A -/,
  ([65, 98, 98, 114], 2) /- Abbr -/,
  ([65, 98, 115], 3) /- Abs -/,
  ([65, 100, 100, 114, 101, 115, 115], 4) /- Address -/,
  ([65, 108, 116, 71, 108, 121, 112, 104], 5) /- AltGlyph -/,
  ([65, 108, 116, 71, 108, 121, 112, 104, 68, 101, 102], 6) /- AltGlyphDef -/,
  ([65, 108, 116, 71, 108, 121, 112, 104, 73, 116, 101, 109], 7) /- AltGlyphItem -/,
  ([65, 108, 116, 103, 108, 121, 112, 104], 8) /- Altglyph -/,
  ([65, 108, 116, 103, 108, 121, 112, 104, 100, 101, 102], 9) /- Altglyphdef -/,
  ([65, 108, 116, 103, 108, 121, 112, 104, 105, 116, 101, 109], 10) /- Altglyphitem -/,
  ([65, 110, 100], 11) /- And -/,
  ([65, 110, 105, 109, 97, 116, 101], 12) /- Animate -/,
  ([65, 110, 105, 109, 97, 116, 101, 67, 111, 108, 111, 114], 13) /- AnimateColor -/,
  ([65, 110, 105, 109, 97, 116, 101, 77, 111, 116, 105, 111, 110], 14) /- AnimateMotion -/,
  ([65, 110, 105, 109, 97, 116, 101, 84, 114, 97, 110, 115, 102, 111, 114, 109], 15) /- AnimateTransform -/,
  ([65, 110, 105, 109, 97, 116, 101, 99, 111, 108, 111, 114], 16) /- Animatecolor -/,
  ([65, 110, 105, 109, 97, 116, 101, 109, 111, 116, 105, 111, 110], 17) /- Animatemotion -/,
  ([65, 110, 105, 109, 97, 116, 101, 116, 114, 97, 110, 115, 102, 111, 114, 109], 18) /- Animatetransform -/,
  ([65, 110, 110, 111, 116, 97, 116, 105, 111, 110], 19) /- Annotation -/,
  ([65, 110, 110, 111, 116, 97, 116, 105, 111, 110, 95, 120, 109, 108], 20) /- Annotation_xml -/,
  ([65, 112, 112, 108, 101, 116], 21) /- Applet -/,
  ([65, 112, 112, 108, 121], 22) /- Apply -/,
  ([65, 112, 112, 114, 111, 120], 23) /- Approx -/,
  ([65, 114, 99, 99, 111, 115], 24) /- Arccos -/,
  ([65, 114, 99, 99, 111, 115, 104], 25) /- Arccosh -/,
  ([65, 114, 99, 99, 111, 116], 26) /- Arccot -/,
  ([65, 114, 99, 99, 111, 116, 104], 27) /- Arccoth -/,
  ([65, 114, 99, 99, 115, 99], 28) /- Arccsc -/,
  ([65, 114, 99, 99, 115, 99, 104], 29) /- Arccsch -/,
  ([65, 114, 99, 115, 101, 99], 30) /- Arcsec -/,
  ([65, 114, 99, 115, 101, 99, 104], 31) /- Arcsech -/,
  ([65, 114, 99, 115, 105, 110], 32) /- Arcsin -/,
  ([65, 114, 99, 115, 105, 110, 104], 33) /- Arcsinh -/,
  ([65, 114, 99, 116, 97, 110], 34) /- Arctan -/,
  ([65, 114, 99, 116, 97, 110, 104], 35) /- Arctanh -/,
  ([65, 114, 101, 97], 36) /- Area -/,
  ([65, 114, 103], 37) /- Arg -/,
  ([65, 114, 116, 105, 99, 108, 101], 38) /- Article -/,
  ([65, 115, 105, 100, 101], 39) /- Aside -/,
  ([65, 117, 100, 105, 111], 40) /- Audio -/,
  ([66], 41) /- B -/,
  ([66, 97, 115, 101], 42) /- Base -/,
  ([66, 97, 115, 101, 102, 111, 110, 116], 43) /- Basefont -/,
  ([66, 100, 105], 44) /- Bdi -/,
  ([66, 100, 111], 45) /- Bdo -/,
  ([66, 103, 115, 111, 117, 110, 100], 46) /- Bgsound -/,
  ([66, 105, 103], 47) /- Big -/,
  ([66, 105, 110, 100], 48) /- Bind -/,
  ([66, 108, 111, 99, 107, 113, 117, 111, 116, 101], 49) /- Blockquote -/,
  ([66, 111, 100, 121], 50) /- Body -/,
  ([66, 114], 51) /- Br -/,
  ([66, 117, 116, 116, 111, 110], 52) /- Button -/,
  ([66, 118, 97, 114], 53) /- Bvar -/,
  ([67, 97, 110, 118, 97, 115], 54) /- Canvas -/,
  ([67, 97, 112, 116, 105, 111, 110], 55) /- Caption -/,
  ([67, 97, 114, 100], 56) /- Card -/,
  ([67, 97, 114, 116, 101, 115, 105, 97, 110, 112, 114, 111, 100, 117, 99, 116], 57) /- Cartesianproduct -/,
  ([67, 98, 121, 116, 101, 115], 58) /- Cbytes -/,
  ([67, 101, 105, 108, 105, 110, 103], 59) /- Ceiling -/,
  ([67, 101, 110, 116, 101, 114], 60) /- Center -/,
  ([67, 101, 114, 114, 111, 114], 61) /- Cerror -/,
  ([67, 105], 62) /- Ci -/,
  ([67, 105, 114, 99, 108, 101], 63) /- Circle -/,
  ([67, 105, 116, 101], 64) /- Cite -/,
  ([67, 108, 105, 112, 80, 97, 116, 104], 65) /- ClipPath -/,
  ([67, 108, 105, 112, 112, 97, 116, 104], 66) /- Clippath -/,
  ([67, 110], 67) /- Cn -/,
  ([67, 111, 100, 101], 68) /- Code -/,
  ([67, 111, 100, 111, 109, 97, 105, 110], 69) /- Codomain -/,
  ([67, 111, 108], 70) /- Col -/,
  ([67, 111, 108, 103, 114, 111, 117, 112], 71) /- Colgroup -/,
  ([67, 111, 109, 112, 108, 101, 120, 101, 115], 72) /- Complexes -/,
  ([67, 111, 109, 112, 111, 115, 101], 73) /- Compose -/,
  ([67, 111, 110, 100, 105, 116, 105, 111, 110], 74) /- Condition -/,
  ([67, 111, 110, 106, 117, 103, 97, 116, 101], 75) /- Conjugate -/,
  ([67, 111, 115], 76) /- Cos -/,
  ([67, 111, 115, 104], 77) /- Cosh -/,
  ([67, 111, 116], 78) /- Cot -/,
  ([67, 111, 116, 104], 79) /- Coth -/,
  ([67, 115], 80) /- Cs -/,
  ([67, 115, 99], 81) /- Csc -/,
  ([67, 115, 99, 104], 82) /- Csch -/,
  ([67, 115, 121, 109, 98, 111, 108], 83) /- Csymbol -/,
  ([67, 117, 114, 108], 84) /- Curl -/,
  ([68, 97, 116, 97], 85) /- Data -/,
  ([68, 97, 116, 97, 108, 105, 115, 116], 86) /- Datalist -/,
  ([68, 100], 87) /- Dd -/,
  ([68, 101, 99, 108, 97, 114, 101], 88) /- Declare -/,
  ([68, 101, 102, 115], 89) /- Defs -/,
  ([68, 101, 103, 114, 101, 101], 90) /- Degree -/,
  ([68, 101, 108], 91) /- Del -/,
  ([68, 101, 115, 99], 92) /- Desc -/,
  ([68, 101, 116, 97, 105, 108, 115], 93) /- Details -/,
  ([68, 101, 116, 101, 114, 109, 105, 110, 97, 110, 116], 94) /- Determinant -/,
  ([68, 102, 110], 95) /- Dfn -/,
  ([68, 105, 97, 108, 111, 103], 96) /- Dialog -/,
  ([68, 105, 102, 102], 97) /- Diff -/,
  ([68, 105, 114], 98) /- Dir -/,
  ([68, 105, 115, 99, 97, 114, 100], 99) /- Discard -/,
  ([68, 105, 118], 100) /- Div -/,
  ([68, 105, 118, 101, 114, 103, 101, 110, 99, 101], 101) /- Divergence -/,
  ([68, 105, 118, 105, 100, 101], 102) /- Divide -/,
  ([68, 108], 103) /- Dl -/,
  ([68, 111, 109, 97, 105, 110], 104) /- Domain -/,
  ([68, 111, 109, 97, 105, 110, 111, 102, 97, 112, 112, 108, 105, 99, 97, 116, 105, 111, 110], 105) /- Domainofapplication -/,
  ([68, 116], 106) /- Dt -/,
  ([69, 108, 108, 105, 112, 115, 101], 107) /- Ellipse -/,
  ([69, 109], 108) /- Em -/,
  ([69, 109, 98, 101, 100], 109) /- Embed -/,
  ([69, 109, 112, 116, 121, 115, 101, 116], 110) /- Emptyset -/,
  ([69, 113], 111) /- Eq -/,
  ([69, 113, 117, 105, 118, 97, 108, 101, 110, 116], 112) /- Equivalent -/,
  ([69, 117, 108, 101, 114, 103, 97, 109, 109, 97], 113) /- Eulergamma -/,
  ([69, 120, 105, 115, 116, 115], 114) /- Exists -/,
  ([69, 120, 112], 115) /- Exp -/,
  ([69, 120, 112, 111, 110, 101, 110, 116, 105, 97, 108, 101], 116) /- Exponentiale -/,
  ([70, 97, 99, 116, 111, 114, 105, 97, 108], 117) /- Factorial -/,
  ([70, 97, 99, 116, 111, 114, 111, 102], 118) /- Factorof -/,
  ([70, 97, 108, 115, 101], 119) /- False -/,
  ([70, 101, 66, 108, 101, 110, 100], 120) /- FeBlend -/,
  ([70, 101, 67, 111, 108, 111, 114, 77, 97, 116, 114, 105, 120], 121) /- FeColorMatrix -/,
  ([70, 101, 67, 111, 109, 112, 111, 110, 101, 110, 116, 84, 114, 97, 110, 115, 102, 101, 114], 122) /- FeComponentTransfer -/,
  ([70, 101, 67, 111, 109, 112, 111, 115, 105, 116, 101], 123) /- FeComposite -/,
  ([70, 101, 67, 111, 110, 118, 111, 108, 118, 101, 77, 97, 116, 114, 105, 120], 124) /- FeConvolveMatrix -/,
  ([70, 101, 68, 105, 102, 102, 117, 115, 101, 76, 105, 103, 104, 116, 105, 110, 103], 125) /- FeDiffuseLighting -/,
  ([70, 101, 68, 105, 115, 112, 108, 97, 99, 101, 109, 101, 110, 116, 77, 97, 112], 126) /- FeDisplacementMap -/,
  ([70, 101, 68, 105, 115, 116, 97, 110, 116, 76, 105, 103, 104, 116], 127) /- FeDistantLight -/,
  ([70, 101, 68, 114, 111, 112, 83, 104, 97, 100, 111, 119], 128) /- FeDropShadow -/,
  ([70, 101, 70, 108, 111, 111, 100], 129) /- FeFlood -/,
  ([70, 101, 70, 117, 110, 99, 65], 130) /- FeFuncA -/,
  ([70, 101, 70, 117, 110, 99, 66], 131) /- FeFuncB -/,
  ([70, 101, 70, 117, 110, 99, 71], 132) /- FeFuncG -/,
  ([70, 101, 70, 117, 110, 99, 82], 133) /- FeFuncR -/,
  ([70, 101, 71, 97, 117, 115, 115, 105, 97, 110, 66, 108, 117, 114], 134) /- FeGaussianBlur -/,
  ([70, 101, 73, 109, 97, 103, 101], 135) /- FeImage -/,
  ([70, 101, 77, 101, 114, 103, 101], 136) /- FeMerge -/,
  ([70, 101, 77, 101, 114, 103, 101, 78, 111, 100, 101], 137) /- FeMergeNode -/,
  ([70, 101, 77, 111, 114, 112, 104, 111, 108, 111, 103, 121], 138) /- FeMorphology -/,
  ([70, 101, 79, 102, 102, 115, 101, 116], 139) /- FeOffset -/,
  ([70, 101, 80, 111, 105, 110, 116, 76, 105, 103, 104, 116], 140) /- FePointLight -/,
  ([70, 101, 83, 112, 101, 99, 117, 108, 97, 114, 76, 105, 103, 104, 116, 105, 110, 103], 141) /- FeSpecularLighting -/,
  ([70, 101, 83, 112, 111, 116, 76, 105, 103, 104, 116], 142) /- FeSpotLight -/,
  ([70, 101, 84, 105, 108, 101], 143) /- FeTile -/,
  ([70, 101, 84, 117, 114, 98, 117, 108, 101, 110, 99, 101], 144) /- FeTurbulence -/,
  ([70, 101, 98, 108, 101, 110, 100], 145) /- Feblend -/,
  ([70, 101, 99, 111, 108, 111, 114, 109, 97, 116, 114, 105, 120], 146) /- Fecolormatrix -/,
  ([70, 101, 99, 111, 109, 112, 111, 110, 101, 110, 116, 116, 114, 97, 110, 115, 102, 101, 114], 147) /- Fecomponenttransfer -/,
  ([70, 101, 99, 111, 109, 112, 111, 115, 105, 116, 101], 148) /- Fecomposite -/,
  ([70, 101, 99, 111, 110, 118, 111, 108, 118, 101, 109, 97, 116, 114, 105, 120], 149) /- Feconvolvematrix -/,
  ([70, 101, 100, 105, 102, 102, 117, 115, 101, 108, 105, 103, 104, 116, 105, 110, 103], 150) /- Fediffuselighting -/,
  ([70, 101, 100, 105, 115, 112, 108, 97, 99, 101, 109, 101, 110, 116, 109, 97, 112], 151) /- Fedisplacementmap -/,
  ([70, 101, 100, 105, 115, 116, 97, 110, 116, 108, 105, 103, 104, 116], 152) /- Fedistantlight -/,
  ([70, 101, 100, 114, 111, 112, 115, 104, 97, 100, 111, 119], 153) /- Fedropshadow -/,
  ([70, 101, 102, 108, 111, 111, 100], 154) /- Feflood -/,
  ([70, 101, 102, 117, 110, 99, 97], 155) /- Fefunca -/,
  ([70, 101, 102, 117, 110, 99, 98], 156) /- Fefuncb -/,
  ([70, 101, 102, 117, 110, 99, 103], 157) /- Fefuncg -/,
  ([70, 101, 102, 117, 110, 99, 114], 158) /- Fefuncr -/,
  ([70, 101, 103, 97, 117, 115, 115, 105, 97, 110, 98, 108, 117, 114], 159) /- Fegaussianblur -/,
  ([70, 101, 105, 109, 97, 103, 101], 160) /- Feimage -/,
  ([70, 101, 109, 101, 114, 103, 101], 161) /- Femerge -/,
  ([70, 101, 109, 101, 114, 103, 101, 110, 111, 100, 101], 162) /- Femergenode -/,
  ([70, 101, 109, 111, 114, 112, 104, 111, 108, 111, 103, 121], 163) /- Femorphology -/,
  ([70, 101, 111, 102, 102, 115, 101, 116], 164) /- Feoffset -/,
  ([70, 101, 112, 111, 105, 110, 116, 108, 105, 103, 104, 116], 165) /- Fepointlight -/,
  ([70, 101, 115, 112, 101, 99, 117, 108, 97, 114, 108, 105, 103, 104, 116, 105, 110, 103], 166) /- Fespecularlighting -/,
  ([70, 101, 115, 112, 111, 116, 108, 105, 103, 104, 116], 167) /- Fespotlight -/,
  ([70, 101, 116, 105, 108, 101], 168) /- Fetile -/,
  ([70, 101, 116, 117, 114, 98, 117, 108, 101, 110, 99, 101], 169) /- Feturbulence -/,
  ([70, 105, 101, 108, 100, 115, 101, 116], 170) /- Fieldset -/,
  ([70, 105, 103, 99, 97, 112, 116, 105, 111, 110], 171) /- Figcaption -/,
  ([70, 105, 103, 117, 114, 101], 172) /- Figure -/,
  ([70, 105, 108, 116, 101, 114], 173) /- Filter -/,
  ([70, 108, 111, 111, 114], 174) /- Floor -/,
  ([70, 110], 175) /- Fn -/,
  ([70, 111, 110, 116], 176) /- Font -/,
  ([70, 111, 111, 116, 101, 114], 177) /- Footer -/,
  ([70, 111, 114, 97, 108, 108], 178) /- Forall -/,
  ([70, 111, 114, 101, 105, 103, 110, 79, 98, 106, 101, 99, 116], 179) /- ForeignObject -/,
  ([70, 111, 114, 101, 105, 103, 110, 111, 98, 106, 101, 99, 116], 180) /- Foreignobject -/,
  ([70, 111, 114, 109], 181) /- Form -/,
  ([70, 114, 97, 109, 101], 182) /- Frame -/,
  ([70, 114, 97, 109, 101, 115, 101, 116], 183) /- Frameset -/,
  ([71], 184) /- G -/,
  ([71, 99, 100], 185) /- Gcd -/,
  ([71, 101, 113], 186) /- Geq -/,
  ([71, 108, 121, 112, 104, 82, 101, 102], 187) /- GlyphRef -/,
  ([71, 108, 121, 112, 104, 114, 101, 102], 188) /- Glyphref -/,
  ([71, 114, 97, 100], 189) /- Grad -/,
  ([71, 116], 190) /- Gt -/,
  ([72, 49], 191) /- H1 -/,
  ([72, 50], 192) /- H2 -/,
  ([72, 51], 193) /- H3 -/,
  ([72, 52], 194) /- H4 -/,
  ([72, 53], 195) /- H5 -/,
  ([72, 54], 196) /- H6 -/,
  ([72, 101, 97, 100], 197) /- Head -/,
  ([72, 101, 97, 100, 101, 114], 198) /- Header -/,
  ([72, 103, 114, 111, 117, 112], 199) /- Hgroup -/,
  ([72, 114], 200) /- Hr -/,
  ([72, 116, 109, 108], 201) /- Html -/,
  ([73], 202) /- I -/,
  ([73, 100, 101, 110, 116], 203) /- Ident -/,
  ([73, 102, 114, 97, 109, 101], 204) /- Iframe -/,
  ([73, 109, 97, 103, 101], 205) /- Image -/,
  ([73, 109, 97, 103, 105, 110, 97, 114, 121], 206) /- Imaginary -/,
  ([73, 109, 97, 103, 105, 110, 97, 114, 121, 105], 207) /- Imaginaryi -/,
  ([73, 109, 103], 208) /- Img -/,
  ([73, 109, 112, 108, 105, 101, 115], 209) /- Implies -/,
  ([73, 110], 210) /- In -/,
  ([73, 110, 102, 105, 110, 105, 116, 121], 211) /- Infinity -/,
  ([73, 110, 112, 117, 116], 212) /- Input -/,
  ([73, 110, 115], 213) /- Ins -/,
  ([73, 110, 116], 214) /- Int -/,
  ([73, 110, 116, 101, 103, 101, 114, 115], 215) /- Integers -/,
  ([73, 110, 116, 101, 114, 115, 101, 99, 116], 216) /- Intersect -/,
  ([73, 110, 116, 101, 114, 118, 97, 108], 217) /- Interval -/,
  ([73, 110, 118, 101, 114, 115, 101], 218) /- Inverse -/,
  ([75, 98, 100], 219) /- Kbd -/,
  ([75, 101, 121, 103, 101, 110], 220) /- Keygen -/,
  ([76, 97, 98, 101, 108], 221) /- Label -/,
  ([76, 97, 109, 98, 100, 97], 222) /- Lambda -/,
  ([76, 97, 112, 108, 97, 99, 105, 97, 110], 223) /- Laplacian -/,
  ([76, 99, 109], 224) /- Lcm -/,
  ([76, 101, 103, 101, 110, 100], 225) /- Legend -/,
  ([76, 101, 113], 226) /- Leq -/,
  ([76, 105], 227) /- Li -/,
  ([76, 105, 109, 105, 116], 228) /- Limit -/,
  ([76, 105, 110, 101], 229) /- Line -/,
  ([76, 105, 110, 101, 97, 114, 71, 114, 97, 100, 105, 101, 110, 116], 230) /- LinearGradient -/,
  ([76, 105, 110, 101, 97, 114, 103, 114, 97, 100, 105, 101, 110, 116], 231) /- Lineargradient -/,
  ([76, 105, 110, 107], 232) /- Link -/,
  ([76, 105, 115, 116], 233) /- List -/,
  ([76, 105, 115, 116, 105, 110, 103], 234) /- Listing -/,
  ([76, 110], 235) /- Ln -/,
  ([76, 111, 103], 236) /- Log -/,
  ([76, 111, 103, 98, 97, 115, 101], 237) /- Logbase -/,
  ([76, 111, 119, 108, 105, 109, 105, 116], 238) /- Lowlimit -/,
  ([76, 116], 239) /- Lt -/,
  ([77, 97, 99, 116, 105, 111, 110], 240) /- Maction -/,
  ([77, 97, 105, 110], 241) /- Main -/,
  ([77, 97, 108, 105, 103, 110, 103, 114, 111, 117, 112], 242) /- Maligngroup -/,
  ([77, 97, 108, 105, 103, 110, 109, 97, 114, 107], 243) /- Malignmark -/,
  ([77, 97, 112], 244) /- Map -/,
  ([77, 97, 114, 107], 245) /- Mark -/,
  ([77, 97, 114, 107, 101, 114], 246) /- Marker -/,
  ([77, 97, 114, 113, 117, 101, 101], 247) /- Marquee -/,
  ([77, 97, 115, 107], 248) /- Mask -/,
  ([77, 97, 116, 104], 249) /- Math -/,
  ([77, 97, 116, 114, 105, 120], 250) /- Matrix -/,
  ([77, 97, 116, 114, 105, 120, 114, 111, 119], 251) /- Matrixrow -/,
  ([77, 97, 120], 252) /- Max -/,
  ([77, 101, 97, 110], 253) /- Mean -/,
  ([77, 101, 100, 105, 97, 110], 254) /- Median -/,
  ([77, 101, 110, 99, 108, 111, 115, 101], 255) /- Menclose -/,
  ([77, 101, 110, 117], 256) /- Menu -/,
  ([77, 101, 114, 114, 111, 114], 257) /- Merror -/,
  ([77, 101, 116, 97], 258) /- Meta -/,
  ([77, 101, 116, 97, 100, 97, 116, 97], 259) /- Metadata -/,
  ([77, 101, 116, 101, 114], 260) /- Meter -/,
  ([77, 102, 101, 110, 99, 101, 100], 261) /- Mfenced -/,
  ([77, 102, 114, 97, 99], 262) /- Mfrac -/,
  ([77, 103, 108, 121, 112, 104], 263) /- Mglyph -/,
  ([77, 105], 264) /- Mi -/,
  ([77, 105, 110], 265) /- Min -/,
  ([77, 105, 110, 117, 115], 266) /- Minus -/,
  ([77, 108, 97, 98, 101, 108, 101, 100, 116, 114], 267) /- Mlabeledtr -/,
  ([77, 108, 111, 110, 103, 100, 105, 118], 268) /- Mlongdiv -/,
  ([77, 109, 117, 108, 116, 105, 115, 99, 114, 105, 112, 116, 115], 269) /- Mmultiscripts -/,
  ([77, 110], 270) /- Mn -/,
  ([77, 111], 271) /- Mo -/,
  ([77, 111, 100, 101], 272) /- Mode -/,
  ([77, 111, 109, 101, 110, 116], 273) /- Moment -/,
  ([77, 111, 109, 101, 110, 116, 97, 98, 111, 117, 116], 274) /- Momentabout -/,
  ([77, 111, 118, 101, 114], 275) /- Mover -/,
  ([77, 112, 97, 100, 100, 101, 100], 276) /- Mpadded -/,
  ([77, 112, 97, 116, 104], 277) /- Mpath -/,
  ([77, 112, 104, 97, 110, 116, 111, 109], 278) /- Mphantom -/,
  ([77, 112, 114, 101, 115, 99, 114, 105, 112, 116, 115], 279) /- Mprescripts -/,
  ([77, 114, 111, 111, 116], 280) /- Mroot -/,
  ([77, 114, 111, 119], 281) /- Mrow -/,
  ([77, 115], 282) /- Ms -/,
  ([77, 115, 99, 97, 114, 114, 105, 101, 115], 283) /- Mscarries -/,
  ([77, 115, 99, 97, 114, 114, 121], 284) /- Mscarry -/,
  ([77, 115, 103, 114, 111, 117, 112], 285) /- Msgroup -/,
  ([77, 115, 108, 105, 110, 101], 286) /- Msline -/,
  ([77, 115, 112, 97, 99, 101], 287) /- Mspace -/,
  ([77, 115, 113, 114, 116], 288) /- Msqrt -/,
  ([77, 115, 114, 111, 119], 289) /- Msrow -/,
  ([77, 115, 116, 97, 99, 107], 290) /- Mstack -/,
  ([77, 115, 116, 121, 108, 101], 291) /- Mstyle -/,
  ([77, 115, 117, 98], 292) /- Msub -/,
  ([77, 115, 117, 98, 115, 117, 112], 293) /- Msubsup -/,
  ([77, 115, 117, 112], 294) /- Msup -/,
  ([77, 116, 97, 98, 108, 101], 295) /- Mtable -/,
  ([77, 116, 100], 296) /- Mtd -/,
  ([77, 116, 101, 120, 116], 297) /- Mtext -/,
  ([77, 116, 114], 298) /- Mtr -/,
  ([77, 117, 110, 100, 101, 114], 299) /- Munder -/,
  ([77, 117, 110, 100, 101, 114, 111, 118, 101, 114], 300) /- Munderover -/,
  ([78, 97, 116, 117, 114, 97, 108, 110, 117, 109, 98, 101, 114, 115], 301) /- Naturalnumbers -/,
  ([78, 97, 118], 302) /- Nav -/,
  ([78, 101, 113], 303) /- Neq -/,
  ([78, 111, 98, 114], 304) /- Nobr -/,
  ([78, 111, 101, 109, 98, 101, 100], 305) /- Noembed -/,
  ([78, 111, 102, 114, 97, 109, 101, 115], 306) /- Noframes -/,
  ([78, 111, 110, 101], 307) /- None -/,
  ([78, 111, 115, 99, 114, 105, 112, 116], 308) /- Noscript -/,
  ([78, 111, 116], 309) /- Not -/,
  ([78, 111, 116, 97, 110, 117, 109, 98, 101, 114], 310) /- Notanumber -/,
  ([78, 111, 116, 105, 110], 311) /- Notin -/,
  ([78, 111, 116, 112, 114, 115, 117, 98, 115, 101, 116], 312) /- Notprsubset -/,
  ([78, 111, 116, 115, 117, 98, 115, 101, 116], 313) /- Notsubset -/,
  ([79, 98, 106, 101, 99, 116], 314) /- Object -/,
  ([79, 108], 315) /- Ol -/,
  ([79, 112, 116, 103, 114, 111, 117, 112], 316) /- Optgroup -/,
  ([79, 112, 116, 105, 111, 110], 317) /- Option -/,
  ([79, 114], 318) /- Or -/,
  ([79, 116, 104, 101, 114, 119, 105, 115, 101], 319) /- Otherwise -/,
  ([79, 117, 116, 101, 114, 112, 114, 111, 100, 117, 99, 116], 320) /- Outerproduct -/,
  ([79, 117, 116, 112, 117, 116], 321) /- Output -/,
  ([80], 322) /- P -/,
  ([80, 97, 114, 97, 109], 323) /- Param -/,
  ([80, 97, 114, 116, 105, 97, 108, 100, 105, 102, 102], 324) /- Partialdiff -/,
  ([80, 97, 116, 104], 325) /- Path -/,
  ([80, 97, 116, 116, 101, 114, 110], 326) /- Pattern -/,
  ([80, 105], 327) /- Pi -/,
  ([80, 105, 99, 116, 117, 114, 101], 328) /- Picture -/,
  ([80, 105, 101, 99, 101], 329) /- Piece -/,
  ([80, 105, 101, 99, 101, 119, 105, 115, 101], 330) /- Piecewise -/,
  ([80, 108, 97, 105, 110, 116, 101, 120, 116], 331) /- Plaintext -/,
  ([80, 108, 117, 115], 332) /- Plus -/,
  ([80, 111, 108, 121, 103, 111, 110], 333) /- Polygon -/,
  ([80, 111, 108, 121, 108, 105, 110, 101], 334) /- Polyline -/,
  ([80, 111, 119, 101, 114], 335) /- Power -/,
  ([80, 114, 101], 336) /- Pre -/,
  ([80, 114, 105, 109, 101, 115], 337) /- Primes -/,
  ([80, 114, 111, 100, 117, 99, 116], 338) /- Product -/,
  ([80, 114, 111, 103, 114, 101, 115, 115], 339) /- Progress -/,
  ([80, 114, 115, 117, 98, 115, 101, 116], 340) /- Prsubset -/,
  ([81], 341) /- Q -/,
  ([81, 117, 111, 116, 105, 101, 110, 116], 342) /- Quotient -/,
  ([82, 97, 100, 105, 97, 108, 71, 114, 97, 100, 105, 101, 110, 116], 343) /- RadialGradient -/,
  ([82, 97, 100, 105, 97, 108, 103, 114, 97, 100, 105, 101, 110, 116], 344) /- Radialgradient -/,
  ([82, 97, 116, 105, 111, 110, 97, 108, 115], 345) /- Rationals -/,
  ([82, 98], 346) /- Rb -/,
  ([82, 101, 97, 108], 347) /- Real -/,
  ([82, 101, 97, 108, 115], 348) /- Reals -/,
  ([82, 101, 99, 116], 349) /- Rect -/,
  ([82, 101, 108, 110], 350) /- Reln -/,
  ([82, 101, 109], 351) /- Rem -/,
  ([82, 111, 111, 116], 352) /- Root -/,
  ([82, 112], 353) /- Rp -/,
  ([82, 116], 354) /- Rt -/,
  ([82, 116, 99], 355) /- Rtc -/,
  ([82, 117, 98, 121], 356) /- Ruby -/,
  ([83], 357) /- S -/,
  ([83, 97, 109, 112], 358) /- Samp -/,
  ([83, 99, 97, 108, 97, 114, 112, 114, 111, 100, 117, 99, 116], 359) /- Scalarproduct -/,
  ([83, 99, 114, 105, 112, 116], 360) /- Script -/,
  ([83, 100, 101, 118], 361) /- Sdev -/,
  ([83, 101, 99], 362) /- Sec -/,
  ([83, 101, 99, 104], 363) /- Sech -/,
  ([83, 101, 99, 116, 105, 111, 110], 364) /- Section -/,
  ([83, 101, 108, 101, 99, 116], 365) /- Select -/,
  ([83, 101, 108, 101, 99, 116, 111, 114], 366) /- Selector -/,
  ([83, 101, 109, 97, 110, 116, 105, 99, 115], 367) /- Semantics -/,
  ([83, 101, 112], 368) /- Sep -/,
  ([83, 101, 116], 369) /- Set -/,
  ([83, 101, 116, 100, 105, 102, 102], 370) /- Setdiff -/,
  ([83, 104, 97, 114, 101], 371) /- Share -/,
  ([83, 105, 110], 372) /- Sin -/,
  ([83, 105, 110, 104], 373) /- Sinh -/,
  ([83, 108, 111, 116], 374) /- Slot -/,
  ([83, 109, 97, 108, 108], 375) /- Small -/,
  ([83, 111, 117, 114, 99, 101], 376) /- Source -/,
  ([83, 112, 97, 110], 377) /- Span -/,
  ([83, 116, 111, 112], 378) /- Stop -/,
  ([83, 116, 114, 105, 107, 101], 379) /- Strike -/,
  ([83, 116, 114, 111, 110, 103], 380) /- Strong -/,
  ([83, 116, 121, 108, 101], 381) /- Style -/,
  ([83, 117, 98], 382) /- Sub -/,
  ([83, 117, 98, 115, 101, 116], 383) /- Subset -/,
  ([83, 117, 109], 384) /- Sum -/,
  ([83, 117, 109, 109, 97, 114, 121], 385) /- Summary -/,
  ([83, 117, 112], 386) /- Sup -/,
  ([83, 118, 103], 387) /- Svg -/,
  ([83, 119, 105, 116, 99, 104], 388) /- Switch -/,
  ([83, 121, 109, 98, 111, 108], 389) /- Symbol -/,
  ([84, 97, 98, 108, 101], 390) /- Table -/,
  ([84, 97, 110], 391) /- Tan -/,
  ([84, 97, 110, 104], 392) /- Tanh -/,
  ([84, 98, 111, 100, 121], 393) /- Tbody -/,
  ([84, 100], 394) /- Td -/,
  ([84, 101, 109, 112, 108, 97, 116, 101], 395) /- Template -/,
  ([84, 101, 110, 100, 115, 116, 111], 396) /- Tendsto -/,
  ([84, 101, 120, 116], 397) /- Text -/,
  ([84, 101, 120, 116, 80, 97, 116, 104], 398) /- TextPath -/,
  ([84, 101, 120, 116, 97, 114, 101, 97], 399) /- Textarea -/,
  ([84, 101, 120, 116, 112, 97, 116, 104], 400) /- Textpath -/,
  ([84, 102, 111, 111, 116], 401) /- Tfoot -/,
  ([84, 104], 402) /- Th -/,
  ([84, 104, 101, 97, 100], 403) /- Thead -/,
  ([84, 105, 109, 101], 404) /- Time -/,
  ([84, 105, 109, 101, 115], 405) /- Times -/,
  ([84, 105, 116, 108, 101], 406) /- Title -/,
  ([84, 114], 407) /- Tr -/,
  ([84, 114, 97, 99, 107], 408) /- Track -/,
  ([84, 114, 97, 110, 115, 112, 111, 115, 101], 409) /- Transpose -/,
  ([84, 114, 117, 101], 410) /- True -/,
  ([84, 115, 112, 97, 110], 411) /- Tspan -/,
  ([84, 116], 412) /- Tt -/,
  ([85], 413) /- U -/,
  ([85, 108], 414) /- Ul -/,
  ([85, 110, 105, 111, 110], 415) /- Union -/,
  ([85, 112, 108, 105, 109, 105, 116], 416) /- Uplimit -/,
  ([85, 115, 101], 417) /- Use -/,
  ([86, 97, 114], 418) /- Var -/,
  ([86, 97, 114, 105, 97, 110, 99, 101], 419) /- Variance -/,
  ([86, 101, 99, 116, 111, 114], 420) /- Vector -/,
  ([86, 101, 99, 116, 111, 114, 112, 114, 111, 100, 117, 99, 116], 421) /- Vectorproduct -/,
  ([86, 105, 100, 101, 111], 422) /- Video -/,
  ([86, 105, 101, 119], 423) /- View -/,
  ([87, 98, 114], 424) /- Wbr -/,
  ([88, 109, 112], 425) /- Xmp -/,
  ([88, 111, 114], 426) /- Xor -/
]

/-- `attribute_atom_tbl`(atom_tbl.cpp:436-1070), enumerators as numbers. -/
def attrMap : List (List Nat × Nat) := [
  ([97, 98, 98, 114], 1) /- abbr -/,
  ([97, 99, 99, 101, 110, 116], 2) /- accent -/,
  ([97, 99, 99, 101, 110, 116, 117, 110, 100, 101, 114], 3) /- accentunder -/,
  ([97, 99, 99, 101, 112, 116], 4) /- accept -/,
  ([97, 99, 99, 101, 112, 116, 45, 99, 104, 97, 114, 115, 101, 116], 5) /- accept-charset -/,
  ([97, 99, 99, 101, 115, 115, 107, 101, 121], 6) /- accesskey -/,
  ([97, 99, 99, 117, 109, 117, 108, 97, 116, 101], 7) /- accumulate -/,
  ([97, 99, 116, 105, 111, 110], 8) /- action -/,
  ([97, 99, 116, 105, 111, 110, 116, 121, 112, 101], 9) /- actiontype -/,
  ([97, 99, 116, 117, 97, 116, 101], 10) /- actuate -/,
  ([97, 100, 100, 105, 116, 105, 118, 101], 11) /- additive -/,
  ([97, 108, 105, 103, 110], 12) /- align -/,
  ([97, 108, 105, 103, 110, 109, 101, 110, 116, 45, 98, 97, 115, 101, 108, 105, 110, 101], 13) /- alignment-baseline -/,
  ([97, 108, 105, 103, 110, 109, 101, 110, 116, 115, 99, 111, 112, 101], 14) /- alignmentscope -/,
  ([97, 108, 108, 111, 119], 15) /- allow -/,
  ([97, 108, 108, 111, 119, 102, 117, 108, 108, 115, 99, 114, 101, 101, 110], 16) /- allowfullscreen -/,
  ([97, 108, 108, 111, 119, 112, 97, 121, 109, 101, 110, 116, 114, 101, 113, 117, 101, 115, 116], 17) /- allowpaymentrequest -/,
  ([97, 108, 116], 18) /- alt -/,
  ([97, 108, 116, 105, 109, 103], 19) /- altimg -/,
  ([97, 108, 116, 105, 109, 103, 45, 104, 101, 105, 103, 104, 116], 20) /- altimg-height -/,
  ([97, 108, 116, 105, 109, 103, 45, 118, 97, 108, 105, 103, 110], 21) /- altimg-valign -/,
  ([97, 108, 116, 105, 109, 103, 45, 119, 105, 100, 116, 104], 22) /- altimg-width -/,
  ([97, 108, 116, 116, 101, 120, 116], 23) /- alttext -/,
  ([97, 109, 112, 108, 105, 116, 117, 100, 101], 24) /- amplitude -/,
  ([97, 110, 110, 111, 116, 97, 116, 105, 111, 110, 45, 120, 109, 108], 25) /- annotation-xml -/,
  ([97, 114, 99, 114, 111, 108, 101], 26) /- arcrole -/,
  ([97, 114, 105, 97, 45, 97, 99, 116, 105, 118, 101, 100, 101, 115, 99, 101, 110, 100, 97, 110, 116], 27) /- aria-activedescendant -/,
  ([97, 114, 105, 97, 45, 97, 116, 111, 109, 105, 99], 28) /- aria-atomic -/,
  ([97, 114, 105, 97, 45, 97, 117, 116, 111, 99, 111, 109, 112, 108, 101, 116, 101], 29) /- aria-autocomplete -/,
  ([97, 114, 105, 97, 45, 98, 117, 115, 121], 30) /- aria-busy -/,
  ([97, 114, 105, 97, 45, 99, 104, 101, 99, 107, 101, 100], 31) /- aria-checked -/,
  ([97, 114, 105, 97, 45, 99, 111, 108, 99, 111, 117, 110, 116], 32) /- aria-colcount -/,
  ([97, 114, 105, 97, 45, 99, 111, 108, 105, 110, 100, 101, 120], 33) /- aria-colindex -/,
  ([97, 114, 105, 97, 45, 99, 111, 108, 115, 112, 97, 110], 34) /- aria-colspan -/,
  ([97, 114, 105, 97, 45, 99, 111, 110, 116, 114, 111, 108, 115], 35) /- aria-controls -/,
  ([97, 114, 105, 97, 45, 99, 117, 114, 114, 101, 110, 116], 36) /- aria-current -/,
  ([97, 114, 105, 97, 45, 100, 101, 115, 99, 114, 105, 98, 101, 100, 98, 121], 37) /- aria-describedby -/,
  ([97, 114, 105, 97, 45, 100, 101, 116, 97, 105, 108, 115], 38) /- aria-details -/,
  ([97, 114, 105, 97, 45, 100, 105, 115, 97, 98, 108, 101, 100], 39) /- aria-disabled -/,
  ([97, 114, 105, 97, 45, 100, 114, 111, 112, 101, 102, 102, 101, 99, 116], 40) /- aria-dropeffect -/,
  ([97, 114, 105, 97, 45, 101, 114, 114, 111, 114, 109, 101, 115, 115, 97, 103, 101], 41) /- aria-errormessage -/,
  ([97, 114, 105, 97, 45, 101, 120, 112, 97, 110, 100, 101, 100], 42) /- aria-expanded -/,
  ([97, 114, 105, 97, 45, 102, 108, 111, 119, 116, 111], 43) /- aria-flowto -/,
  ([97, 114, 105, 97, 45, 103, 114, 97, 98, 98, 101, 100], 44) /- aria-grabbed -/,
  ([97, 114, 105, 97, 45, 104, 97, 115, 112, 111, 112, 117, 112], 45) /- aria-haspopup -/,
  ([97, 114, 105, 97, 45, 104, 105, 100, 100, 101, 110], 46) /- aria-hidden -/,
  ([97, 114, 105, 97, 45, 105, 110, 118, 97, 108, 105, 100], 47) /- aria-invalid -/,
  ([97, 114, 105, 97, 45, 107, 101, 121, 115, 104, 111, 114, 116, 99, 117, 116, 115], 48) /- aria-keyshortcuts -/,
  ([97, 114, 105, 97, 45, 108, 97, 98, 101, 108], 49) /- aria-label -/,
  ([97, 114, 105, 97, 45, 108, 97, 98, 101, 108, 108, 101, 100, 98, 121], 50) /- aria-labelledby -/,
  ([97, 114, 105, 97, 45, 108, 101, 118, 101, 108], 51) /- aria-level -/,
  ([97, 114, 105, 97, 45, 108, 105, 118, 101], 52) /- aria-live -/,
  ([97, 114, 105, 97, 45, 109, 111, 100, 97, 108], 53) /- aria-modal -/,
  ([97, 114, 105, 97, 45, 109, 117, 108, 116, 105, 108, 105, 110, 101], 54) /- aria-multiline -/,
  ([97, 114, 105, 97, 45, 109, 117, 108, 116, 105, 115, 101, 108, 101, 99, 116, 97, 98, 108, 101], 55) /- aria-multiselectable -/,
  ([97, 114, 105, 97, 45, 111, 114, 105, 101, 110, 116, 97, 116, 105, 111, 110], 56) /- aria-orientation -/,
  ([97, 114, 105, 97, 45, 111, 119, 110, 115], 57) /- aria-owns -/,
  ([97, 114, 105, 97, 45, 112, 108, 97, 99, 101, 104, 111, 108, 100, 101, 114], 58) /- aria-placeholder -/,
  ([97, 114, 105, 97, 45, 112, 111, 115, 105, 110, 115, 101, 116], 59) /- aria-posinset -/,
  ([97, 114, 105, 97, 45, 112, 114, 101, 115, 115, 101, 100], 60) /- aria-pressed -/,
  ([97, 114, 105, 97, 45, 114, 101, 97, 100, 111, 110, 108, 121], 61) /- aria-readonly -/,
  ([97, 114, 105, 97, 45, 114, 101, 108, 101, 118, 97, 110, 116], 62) /- aria-relevant -/,
  ([97, 114, 105, 97, 45, 114, 101, 113, 117, 105, 114, 101, 100], 63) /- aria-required -/,
  ([97, 114, 105, 97, 45, 114, 111, 108, 101, 100, 101, 115, 99, 114, 105, 112, 116, 105, 111, 110], 64) /- aria-roledescription -/,
  ([97, 114, 105, 97, 45, 114, 111, 119, 99, 111, 117, 110, 116], 65) /- aria-rowcount -/,
  ([97, 114, 105, 97, 45, 114, 111, 119, 105, 110, 100, 101, 120], 66) /- aria-rowindex -/,
  ([97, 114, 105, 97, 45, 114, 111, 119, 115, 112, 97, 110], 67) /- aria-rowspan -/,
  ([97, 114, 105, 97, 45, 115, 101, 108, 101, 99, 116, 101, 100], 68) /- aria-selected -/,
  ([97, 114, 105, 97, 45, 115, 101, 116, 115, 105, 122, 101], 69) /- aria-setsize -/,
  ([97, 114, 105, 97, 45, 115, 111, 114, 116], 70) /- aria-sort -/,
  ([97, 114, 105, 97, 45, 118, 97, 108, 117, 101, 109, 97, 120], 71) /- aria-valuemax -/,
  ([97, 114, 105, 97, 45, 118, 97, 108, 117, 101, 109, 105, 110], 72) /- aria-valuemin -/,
  ([97, 114, 105, 97, 45, 118, 97, 108, 117, 101, 110, 111, 119], 73) /- aria-valuenow -/,
  ([97, 114, 105, 97, 45, 118, 97, 108, 117, 101, 116, 101, 120, 116], 74) /- aria-valuetext -/,
  ([97, 115], 75) /- as -/,
  ([97, 115, 121, 110, 99], 76) /- async -/,
  ([97, 116, 116, 114, 105, 98, 117, 116, 101, 78, 97, 109, 101], 77) /- attributeName -/,
  ([97, 116, 116, 114, 105, 98, 117, 116, 101, 84, 121, 112, 101], 78) /- attributeType -/,
  ([97, 116, 116, 114, 105, 98, 117, 116, 101, 110, 97, 109, 101], 79) /- attributename -/,
  ([97, 116, 116, 114, 105, 98, 117, 116, 101, 116, 121, 112, 101], 80) /- attributetype -/,
  ([97, 117, 116, 111, 99, 97, 112, 105, 116, 97, 108, 105, 122, 101], 81) /- autocapitalize -/,
  ([97, 117, 116, 111, 99, 111, 109, 112, 108, 101, 116, 101], 82) /- autocomplete -/,
  ([97, 117, 116, 111, 102, 111, 99, 117, 115], 83) /- autofocus -/,
  ([97, 117, 116, 111, 112, 108, 97, 121], 84) /- autoplay -/,
  ([97, 122, 105, 109, 117, 116, 104], 85) /- azimuth -/,
  ([98, 97, 99, 107, 103, 114, 111, 117, 110, 100], 86) /- background -/,
  ([98, 97, 115, 101], 87) /- base -/,
  ([98, 97, 115, 101, 70, 114, 101, 113, 117, 101, 110, 99, 121], 88) /- baseFrequency -/,
  ([98, 97, 115, 101, 80, 114, 111, 102, 105, 108, 101], 89) /- baseProfile -/,
  ([98, 97, 115, 101, 102, 114, 101, 113, 117, 101, 110, 99, 121], 90) /- basefrequency -/,
  ([98, 97, 115, 101, 108, 105, 110, 101], 91) /- baseline -/,
  ([98, 97, 115, 101, 108, 105, 110, 101, 45, 115, 104, 105, 102, 116], 92) /- baseline-shift -/,
  ([98, 97, 115, 101, 112, 114, 111, 102, 105, 108, 101], 93) /- baseprofile -/,
  ([98, 101, 103, 105, 110], 94) /- begin -/,
  ([98, 101, 118, 101, 108, 108, 101, 100], 95) /- bevelled -/,
  ([98, 105, 97, 115], 96) /- bias -/,
  ([98, 121], 97) /- by -/,
  ([99, 97, 108, 99, 77, 111, 100, 101], 98) /- calcMode -/,
  ([99, 97, 108, 99, 109, 111, 100, 101], 99) /- calcmode -/,
  ([99, 100], 100) /- cd -/,
  ([99, 100, 103, 114, 111, 117, 112], 101) /- cdgroup -/,
  ([99, 104, 97, 114, 97, 108, 105, 103, 110], 102) /- charalign -/,
  ([99, 104, 97, 114, 115, 101, 116], 103) /- charset -/,
  ([99, 104, 97, 114, 115, 112, 97, 99, 105, 110, 103], 104) /- charspacing -/,
  ([99, 104, 101, 99, 107, 101, 100], 105) /- checked -/,
  ([99, 105, 116, 101], 106) /- cite -/,
  ([99, 108, 97, 115, 115], 107) /- class -/,
  ([99, 108, 105, 112], 108) /- clip -/,
  ([99, 108, 105, 112, 45, 112, 97, 116, 104], 109) /- clip-path -/,
  ([99, 108, 105, 112, 45, 114, 117, 108, 101], 110) /- clip-rule -/,
  ([99, 108, 105, 112, 80, 97, 116, 104, 85, 110, 105, 116, 115], 111) /- clipPathUnits -/,
  ([99, 108, 105, 112, 112, 97, 116, 104, 117, 110, 105, 116, 115], 112) /- clippathunits -/,
  ([99, 108, 111, 115, 101], 113) /- close -/,
  ([99, 108, 111, 115, 117, 114, 101], 114) /- closure -/,
  ([99, 111, 108, 111, 114], 115) /- color -/,
  ([99, 111, 108, 111, 114, 45, 105, 110, 116, 101, 114, 112, 111, 108, 97, 116, 105, 111, 110], 116) /- color-interpolation -/,
  ([99, 111, 108, 111, 114, 45, 105, 110, 116, 101, 114, 112, 111, 108, 97, 116, 105, 111, 110, 45, 102, 105, 108, 116, 101, 114, 115], 117) /- color-interpolation-filters -/,
  ([99, 111, 108, 115], 118) /- cols -/,
  ([99, 111, 108, 115, 112, 97, 110], 119) /- colspan -/,
  ([99, 111, 108, 117, 109, 110, 97, 108, 105, 103, 110], 120) /- columnalign -/,
  ([99, 111, 108, 117, 109, 110, 97, 108, 105, 103, 110, 109, 101, 110, 116], 121) /- columnalignment -/,
  ([99, 111, 108, 117, 109, 110, 108, 105, 110, 101, 115], 122) /- columnlines -/,
  ([99, 111, 108, 117, 109, 110, 115, 112, 97, 99, 105, 110, 103], 123) /- columnspacing -/,
  ([99, 111, 108, 117, 109, 110, 115, 112, 97, 110], 124) /- columnspan -/,
  ([99, 111, 108, 117, 109, 110, 119, 105, 100, 116, 104], 125) /- columnwidth -/,
  ([99, 111, 110, 116, 101, 110, 116], 126) /- content -/,
  ([99, 111, 110, 116, 101, 110, 116, 101, 100, 105, 116, 97, 98, 108, 101], 127) /- contenteditable -/,
  ([99, 111, 110, 116, 114, 111, 108, 115], 128) /- controls -/,
  ([99, 111, 111, 114, 100, 115], 129) /- coords -/,
  ([99, 114, 111, 115, 115, 111, 114, 105, 103, 105, 110], 130) /- crossorigin -/,
  ([99, 114, 111, 115, 115, 111, 117, 116], 131) /- crossout -/,
  ([99, 117, 114, 115, 111, 114], 132) /- cursor -/,
  ([99, 120], 133) /- cx -/,
  ([99, 121], 134) /- cy -/,
  ([100, 97, 116, 97], 135) /- data -/,
  ([100, 97, 116, 101, 116, 105, 109, 101], 136) /- datetime -/,
  ([100, 101, 99, 105, 109, 97, 108, 112, 111, 105, 110, 116], 137) /- decimalpoint -/,
  ([100, 101, 99, 111, 100, 105, 110, 103], 138) /- decoding -/,
  ([100, 101, 102, 97, 117, 108, 116], 139) /- default -/,
  ([100, 101, 102, 101, 114], 140) /- defer -/,
  ([100, 101, 102, 105, 110, 105, 116, 105, 111, 110, 85, 82, 76], 141) /- definitionURL -/,
  ([100, 101, 102, 105, 110, 105, 116, 105, 111, 110, 117, 114, 108], 142) /- definitionurl -/,
  ([100, 101, 110, 111, 109, 97, 108, 105, 103, 110], 143) /- denomalign -/,
  ([100, 101, 112, 116, 104], 144) /- depth -/,
  ([100, 105, 102, 102, 117, 115, 101, 67, 111, 110, 115, 116, 97, 110, 116], 145) /- diffuseConstant -/,
  ([100, 105, 102, 102, 117, 115, 101, 99, 111, 110, 115, 116, 97, 110, 116], 146) /- diffuseconstant -/,
  ([100, 105, 114], 147) /- dir -/,
  ([100, 105, 114, 101, 99, 116, 105, 111, 110], 148) /- direction -/,
  ([100, 105, 114, 110, 97, 109, 101], 149) /- dirname -/,
  ([100, 105, 115, 97, 98, 108, 101, 100], 150) /- disabled -/,
  ([100, 105, 115, 112, 108, 97, 121], 151) /- display -/,
  ([100, 105, 115, 112, 108, 97, 121, 115, 116, 121, 108, 101], 152) /- displaystyle -/,
  ([100, 105, 118, 105, 115, 111, 114], 153) /- divisor -/,
  ([100, 111, 109, 105, 110, 97, 110, 116, 45, 98, 97, 115, 101, 108, 105, 110, 101], 154) /- dominant-baseline -/,
  ([100, 111, 119, 110, 108, 111, 97, 100], 155) /- download -/,
  ([100, 114, 97, 103, 103, 97, 98, 108, 101], 156) /- draggable -/,
  ([100, 117, 114], 157) /- dur -/,
  ([100, 120], 158) /- dx -/,
  ([100, 121], 159) /- dy -/,
  ([101, 100, 103, 101], 160) /- edge -/,
  ([101, 100, 103, 101, 77, 111, 100, 101], 161) /- edgeMode -/,
  ([101, 100, 103, 101, 109, 111, 100, 101], 162) /- edgemode -/,
  ([101, 108, 101, 118, 97, 116, 105, 111, 110], 163) /- elevation -/,
  ([101, 110, 99, 111, 100, 105, 110, 103], 164) /- encoding -/,
  ([101, 110, 99, 116, 121, 112, 101], 165) /- enctype -/,
  ([101, 110, 100], 166) /- end -/,
  ([101, 110, 116, 101, 114, 107, 101, 121, 104, 105, 110, 116], 167) /- enterkeyhint -/,
  ([101, 113, 117, 97, 108, 99, 111, 108, 117, 109, 110, 115], 168) /- equalcolumns -/,
  ([101, 113, 117, 97, 108, 114, 111, 119, 115], 169) /- equalrows -/,
  ([101, 120, 112, 111, 110, 101, 110, 116], 170) /- exponent -/,
  ([102, 101, 110, 99, 101], 171) /- fence -/,
  ([102, 105, 108, 108], 172) /- fill -/,
  ([102, 105, 108, 108, 45, 111, 112, 97, 99, 105, 116, 121], 173) /- fill-opacity -/,
  ([102, 105, 108, 108, 45, 114, 117, 108, 101], 174) /- fill-rule -/,
  ([102, 105, 108, 116, 101, 114], 175) /- filter -/,
  ([102, 105, 108, 116, 101, 114, 85, 110, 105, 116, 115], 176) /- filterUnits -/,
  ([102, 105, 108, 116, 101, 114, 117, 110, 105, 116, 115], 177) /- filterunits -/,
  ([102, 108, 111, 111, 100, 45, 99, 111, 108, 111, 114], 178) /- flood-color -/,
  ([102, 108, 111, 111, 100, 45, 111, 112, 97, 99, 105, 116, 121], 179) /- flood-opacity -/,
  ([102, 111, 110, 116, 45, 102, 97, 109, 105, 108, 121], 180) /- font-family -/,
  ([102, 111, 110, 116, 45, 115, 105, 122, 101], 181) /- font-size -/,
  ([102, 111, 110, 116, 45, 115, 105, 122, 101, 45, 97, 100, 106, 117, 115, 116], 182) /- font-size-adjust -/,
  ([102, 111, 110, 116, 45, 115, 116, 114, 101, 116, 99, 104], 183) /- font-stretch -/,
  ([102, 111, 110, 116, 45, 115, 116, 121, 108, 101], 184) /- font-style -/,
  ([102, 111, 110, 116, 45, 118, 97, 114, 105, 97, 110, 116], 185) /- font-variant -/,
  ([102, 111, 110, 116, 45, 119, 101, 105, 103, 104, 116], 186) /- font-weight -/,
  ([102, 111, 110, 116, 102, 97, 109, 105, 108, 121], 187) /- fontfamily -/,
  ([102, 111, 110, 116, 115, 105, 122, 101], 188) /- fontsize -/,
  ([102, 111, 110, 116, 115, 116, 121, 108, 101], 189) /- fontstyle -/,
  ([102, 111, 110, 116, 119, 101, 105, 103, 104, 116], 190) /- fontweight -/,
  ([102, 111, 114], 191) /- for -/,
  ([102, 111, 114, 109], 192) /- form -/,
  ([102, 111, 114, 109, 97, 99, 116, 105, 111, 110], 193) /- formaction -/,
  ([102, 111, 114, 109, 101, 110, 99, 116, 121, 112, 101], 194) /- formenctype -/,
  ([102, 111, 114, 109, 109, 101, 116, 104, 111, 100], 195) /- formmethod -/,
  ([102, 111, 114, 109, 110, 111, 118, 97, 108, 105, 100, 97, 116, 101], 196) /- formnovalidate -/,
  ([102, 111, 114, 109, 116, 97, 114, 103, 101, 116], 197) /- formtarget -/,
  ([102, 114], 198) /- fr -/,
  ([102, 114, 97, 109, 101], 199) /- frame -/,
  ([102, 114, 97, 109, 101, 115, 112, 97, 99, 105, 110, 103], 200) /- framespacing -/,
  ([102, 114, 111, 109], 201) /- from -/,
  ([102, 120], 202) /- fx -/,
  ([102, 121], 203) /- fy -/,
  ([103, 108, 121, 112, 104, 45, 111, 114, 105, 101, 110, 116, 97, 116, 105, 111, 110, 45, 104, 111, 114, 105, 122, 111, 110, 116, 97, 108], 204) /- glyph-orientation-horizontal -/,
  ([103, 108, 121, 112, 104, 45, 111, 114, 105, 101, 110, 116, 97, 116, 105, 111, 110, 45, 118, 101, 114, 116, 105, 99, 97, 108], 205) /- glyph-orientation-vertical -/,
  ([103, 108, 121, 112, 104, 82, 101, 102], 206) /- glyphRef -/,
  ([103, 108, 121, 112, 104, 114, 101, 102], 207) /- glyphref -/,
  ([103, 114, 97, 100, 105, 101, 110, 116, 84, 114, 97, 110, 115, 102, 111, 114, 109], 208) /- gradientTransform -/,
  ([103, 114, 97, 100, 105, 101, 110, 116, 85, 110, 105, 116, 115], 209) /- gradientUnits -/,
  ([103, 114, 97, 100, 105, 101, 110, 116, 116, 114, 97, 110, 115, 102, 111, 114, 109], 210) /- gradienttransform -/,
  ([103, 114, 97, 100, 105, 101, 110, 116, 117, 110, 105, 116, 115], 211) /- gradientunits -/,
  ([103, 114, 111, 117, 112, 97, 108, 105, 103, 110], 212) /- groupalign -/,
  ([104, 101, 97, 100, 101, 114, 115], 213) /- headers -/,
  ([104, 101, 105, 103, 104, 116], 214) /- height -/,
  ([104, 105, 100, 100, 101, 110], 215) /- hidden -/,
  ([104, 105, 103, 104], 216) /- high -/,
  ([104, 114, 101, 102], 217) /- href -/,
  ([104, 114, 101, 102, 108, 97, 110, 103], 218) /- hreflang -/,
  ([104, 116, 116, 112, 45, 101, 113, 117, 105, 118], 219) /- http-equiv -/,
  ([105, 100], 220) /- id -/,
  ([105, 109, 97, 103, 101, 45, 114, 101, 110, 100, 101, 114, 105, 110, 103], 221) /- image-rendering -/,
  ([105, 109, 97, 103, 101, 115, 105, 122, 101, 115], 222) /- imagesizes -/,
  ([105, 109, 97, 103, 101, 115, 114, 99, 115, 101, 116], 223) /- imagesrcset -/,
  ([105, 110], 224) /- in -/,
  ([105, 110, 50], 225) /- in2 -/,
  ([105, 110, 100, 101, 110, 116, 97, 108, 105, 103, 110], 226) /- indentalign -/,
  ([105, 110, 100, 101, 110, 116, 97, 108, 105, 103, 110, 102, 105, 114, 115, 116], 227) /- indentalignfirst -/,
  ([105, 110, 100, 101, 110, 116, 97, 108, 105, 103, 110, 108, 97, 115, 116], 228) /- indentalignlast -/,
  ([105, 110, 100, 101, 110, 116, 115, 104, 105, 102, 116], 229) /- indentshift -/,
  ([105, 110, 100, 101, 110, 116, 115, 104, 105, 102, 116, 102, 105, 114, 115, 116], 230) /- indentshiftfirst -/,
  ([105, 110, 100, 101, 110, 116, 115, 104, 105, 102, 116, 108, 97, 115, 116], 231) /- indentshiftlast -/,
  ([105, 110, 100, 101, 110, 116, 116, 97, 114, 103, 101, 116], 232) /- indenttarget -/,
  ([105, 110, 100, 101, 120], 233) /- index -/,
  ([105, 110, 102, 105, 120, 108, 105, 110, 101, 98, 114, 101, 97, 107, 115, 116, 121, 108, 101], 234) /- infixlinebreakstyle -/,
  ([105, 110, 112, 117, 116, 109, 111, 100, 101], 235) /- inputmode -/,
  ([105, 110, 116, 101, 103, 101, 114], 236) /- integer -/,
  ([105, 110, 116, 101, 103, 114, 105, 116, 121], 237) /- integrity -/,
  ([105, 110, 116, 101, 114, 99, 101, 112, 116], 238) /- intercept -/,
  ([105, 115], 239) /- is -/,
  ([105, 115, 109, 97, 112], 240) /- ismap -/,
  ([105, 116, 101, 109, 105, 100], 241) /- itemid -/,
  ([105, 116, 101, 109, 112, 114, 111, 112], 242) /- itemprop -/,
  ([105, 116, 101, 109, 114, 101, 102], 243) /- itemref -/,
  ([105, 116, 101, 109, 115, 99, 111, 112, 101], 244) /- itemscope -/,
  ([105, 116, 101, 109, 116, 121, 112, 101], 245) /- itemtype -/,
  ([107, 49], 246) /- k1 -/,
  ([107, 50], 247) /- k2 -/,
  ([107, 51], 248) /- k3 -/,
  ([107, 52], 249) /- k4 -/,
  ([107, 101, 114, 110, 101, 108, 77, 97, 116, 114, 105, 120], 250) /- kernelMatrix -/,
  ([107, 101, 114, 110, 101, 108, 85, 110, 105, 116, 76, 101, 110, 103, 116, 104], 251) /- kernelUnitLength -/,
  ([107, 101, 114, 110, 101, 108, 109, 97, 116, 114, 105, 120], 252) /- kernelmatrix -/,
  ([107, 101, 114, 110, 101, 108, 117, 110, 105, 116, 108, 101, 110, 103, 116, 104], 253) /- kernelunitlength -/,
  ([107, 101, 121, 80, 111, 105, 110, 116, 115], 254) /- keyPoints -/,
  ([107, 101, 121, 83, 112, 108, 105, 110, 101, 115], 255) /- keySplines -/,
  ([107, 101, 121, 84, 105, 109, 101, 115], 256) /- keyTimes -/,
  ([107, 101, 121, 112, 111, 105, 110, 116, 115], 257) /- keypoints -/,
  ([107, 101, 121, 115, 112, 108, 105, 110, 101, 115], 258) /- keysplines -/,
  ([107, 101, 121, 116, 105, 109, 101, 115], 259) /- keytimes -/,
  ([107, 105, 110, 100], 260) /- kind -/,
  ([108, 97, 98, 101, 108], 261) /- label -/,
  ([108, 97, 110, 103], 262) /- lang -/,
  ([108, 97, 114, 103, 101, 111, 112], 263) /- largeop -/,
  ([108, 101, 102, 116, 111, 118, 101, 114, 104, 97, 110, 103], 264) /- leftoverhang -/,
  ([108, 101, 110, 103, 116, 104], 265) /- length -/,
  ([108, 101, 110, 103, 116, 104, 65, 100, 106, 117, 115, 116], 266) /- lengthAdjust -/,
  ([108, 101, 110, 103, 116, 104, 97, 100, 106, 117, 115, 116], 267) /- lengthadjust -/,
  ([108, 101, 116, 116, 101, 114, 45, 115, 112, 97, 99, 105, 110, 103], 268) /- letter-spacing -/,
  ([108, 105, 103, 104, 116, 105, 110, 103, 45, 99, 111, 108, 111, 114], 269) /- lighting-color -/,
  ([108, 105, 109, 105, 116, 105, 110, 103, 67, 111, 110, 101, 65, 110, 103, 108, 101], 270) /- limitingConeAngle -/,
  ([108, 105, 109, 105, 116, 105, 110, 103, 99, 111, 110, 101, 97, 110, 103, 108, 101], 271) /- limitingconeangle -/,
  ([108, 105, 110, 101, 98, 114, 101, 97, 107], 272) /- linebreak -/,
  ([108, 105, 110, 101, 98, 114, 101, 97, 107, 109, 117, 108, 116, 99, 104, 97, 114], 273) /- linebreakmultchar -/,
  ([108, 105, 110, 101, 98, 114, 101, 97, 107, 115, 116, 121, 108, 101], 274) /- linebreakstyle -/,
  ([108, 105, 110, 101, 108, 101, 97, 100, 105, 110, 103], 275) /- lineleading -/,
  ([108, 105, 110, 101, 116, 104, 105, 99, 107, 110, 101, 115, 115], 276) /- linethickness -/,
  ([108, 105, 115, 116], 277) /- list -/,
  ([108, 111, 97, 100, 105, 110, 103], 278) /- loading -/,
  ([108, 111, 99, 97, 116, 105, 111, 110], 279) /- location -/,
  ([108, 111, 110, 103, 100, 105, 118, 115, 116, 121, 108, 101], 280) /- longdivstyle -/,
  ([108, 111, 111, 112], 281) /- loop -/,
  ([108, 111, 119], 282) /- low -/,
  ([108, 113, 117, 111, 116, 101], 283) /- lquote -/,
  ([108, 115, 112, 97, 99, 101], 284) /- lspace -/,
  ([108, 116, 114], 285) /- ltr -/,
  ([109, 97, 99, 114, 111, 115], 286) /- macros -/,
  ([109, 97, 110, 105, 102, 101, 115, 116], 287) /- manifest -/,
  ([109, 97, 114, 107, 101, 114, 45, 101, 110, 100], 288) /- marker-end -/,
  ([109, 97, 114, 107, 101, 114, 45, 109, 105, 100], 289) /- marker-mid -/,
  ([109, 97, 114, 107, 101, 114, 45, 115, 116, 97, 114, 116], 290) /- marker-start -/,
  ([109, 97, 114, 107, 101, 114, 72, 101, 105, 103, 104, 116], 291) /- markerHeight -/,
  ([109, 97, 114, 107, 101, 114, 85, 110, 105, 116, 115], 292) /- markerUnits -/,
  ([109, 97, 114, 107, 101, 114, 87, 105, 100, 116, 104], 293) /- markerWidth -/,
  ([109, 97, 114, 107, 101, 114, 104, 101, 105, 103, 104, 116], 294) /- markerheight -/,
  ([109, 97, 114, 107, 101, 114, 117, 110, 105, 116, 115], 295) /- markerunits -/,
  ([109, 97, 114, 107, 101, 114, 119, 105, 100, 116, 104], 296) /- markerwidth -/,
  ([109, 97, 115, 107], 297) /- mask -/,
  ([109, 97, 115, 107, 45, 116, 121, 112, 101], 298) /- mask-type -/,
  ([109, 97, 115, 107, 67, 111, 110, 116, 101, 110, 116, 85, 110, 105, 116, 115], 299) /- maskContentUnits -/,
  ([109, 97, 115, 107, 85, 110, 105, 116, 115], 300) /- maskUnits -/,
  ([109, 97, 115, 107, 99, 111, 110, 116, 101, 110, 116, 117, 110, 105, 116, 115], 301) /- maskcontentunits -/,
  ([109, 97, 115, 107, 117, 110, 105, 116, 115], 302) /- maskunits -/,
  ([109, 97, 116, 104], 303) /- math -/,
  ([109, 97, 116, 104, 32, 101, 108, 101, 109, 101, 110, 116], 304) /- math element -/,
  ([109, 97, 116, 104, 98, 97, 99, 107, 103, 114, 111, 117, 110, 100], 305) /- mathbackground -/,
  ([109, 97, 116, 104, 99, 111, 108, 111, 114], 306) /- mathcolor -/,
  ([109, 97, 116, 104, 115, 105, 122, 101], 307) /- mathsize -/,
  ([109, 97, 116, 104, 118, 97, 114, 105, 97, 110, 116], 308) /- mathvariant -/,
  ([109, 97, 120], 309) /- max -/,
  ([109, 97, 120, 108, 101, 110, 103, 116, 104], 310) /- maxlength -/,
  ([109, 97, 120, 115, 105, 122, 101], 311) /- maxsize -/,
  ([109, 97, 120, 119, 105, 100, 116, 104], 312) /- maxwidth -/,
  ([109, 101, 100, 105, 97], 313) /- media -/,
  ([109, 101, 100, 105, 117, 109, 109, 97, 116, 104, 115, 112, 97, 99, 101], 314) /- mediummathspace -/,
  ([109, 101, 110, 99, 108, 111, 115, 101], 315) /- menclose -/,
  ([109, 101, 116, 104, 111, 100], 316) /- method -/,
  ([109, 105, 110], 317) /- min -/,
  ([109, 105, 110, 108, 97, 98, 101, 108, 115, 112, 97, 99, 105, 110, 103], 318) /- minlabelspacing -/,
  ([109, 105, 110, 108, 101, 110, 103, 116, 104], 319) /- minlength -/,
  ([109, 105, 110, 115, 105, 122, 101], 320) /- minsize -/,
  ([109, 111, 100, 101], 321) /- mode -/,
  ([109, 111, 118, 97, 98, 108, 101, 108, 105, 109, 105, 116, 115], 322) /- movablelimits -/,
  ([109, 115, 103, 114, 111, 117, 112], 323) /- msgroup -/,
  ([109, 115, 108, 105, 110, 101, 116, 104, 105, 99, 107, 110, 101, 115, 115], 324) /- mslinethickness -/,
  ([109, 117, 108, 116, 105, 112, 108, 101], 325) /- multiple -/,
  ([109, 117, 116, 101, 100], 326) /- muted -/,
  ([110, 97, 109, 101], 327) /- name -/,
  ([110, 97, 114, 103, 115], 328) /- nargs -/,
  ([110, 101, 119, 108, 105, 110, 101], 329) /- newline -/,
  ([110, 111, 109, 111, 100, 117, 108, 101], 330) /- nomodule -/,
  ([110, 111, 110, 99, 101], 331) /- nonce -/,
  ([110, 111, 116, 97, 116, 105, 111, 110], 332) /- notation -/,
  ([110, 111, 118, 97, 108, 105, 100, 97, 116, 101], 333) /- novalidate -/,
  ([110, 117, 109, 79, 99, 116, 97, 118, 101, 115], 334) /- numOctaves -/,
  ([110, 117, 109, 97, 108, 105, 103, 110], 335) /- numalign -/,
  ([110, 117, 109, 98, 101, 114], 336) /- number -/,
  ([110, 117, 109, 111, 99, 116, 97, 118, 101, 115], 337) /- numoctaves -/,
  ([111, 99, 99, 117, 114, 114, 101, 110, 99, 101], 338) /- occurrence -/,
  ([111, 102, 102, 115, 101, 116], 339) /- offset -/,
  ([111, 110, 97, 98, 111, 114, 116], 340) /- onabort -/,
  ([111, 110, 97, 102, 116, 101, 114, 112, 114, 105, 110, 116], 341) /- onafterprint -/,
  ([111, 110, 97, 117, 120, 99, 108, 105, 99, 107], 342) /- onauxclick -/,
  ([111, 110, 98, 101, 102, 111, 114, 101, 112, 114, 105, 110, 116], 343) /- onbeforeprint -/,
  ([111, 110, 98, 101, 102, 111, 114, 101, 117, 110, 108, 111, 97, 100], 344) /- onbeforeunload -/,
  ([111, 110, 98, 101, 103, 105, 110], 345) /- onbegin -/,
  ([111, 110, 98, 108, 117, 114], 346) /- onblur -/,
  ([111, 110, 99, 97, 110, 99, 101, 108], 347) /- oncancel -/,
  ([111, 110, 99, 97, 110, 112, 108, 97, 121], 348) /- oncanplay -/,
  ([111, 110, 99, 97, 110, 112, 108, 97, 121, 116, 104, 114, 111, 117, 103, 104], 349) /- oncanplaythrough -/,
  ([111, 110, 99, 104, 97, 110, 103, 101], 350) /- onchange -/,
  ([111, 110, 99, 108, 105, 99, 107], 351) /- onclick -/,
  ([111, 110, 99, 108, 111, 115, 101], 352) /- onclose -/,
  ([111, 110, 99, 111, 110, 116, 101, 120, 116, 109, 101, 110, 117], 353) /- oncontextmenu -/,
  ([111, 110, 99, 111, 112, 121], 354) /- oncopy -/,
  ([111, 110, 99, 117, 101, 99, 104, 97, 110, 103, 101], 355) /- oncuechange -/,
  ([111, 110, 99, 117, 116], 356) /- oncut -/,
  ([111, 110, 100, 98, 108, 99, 108, 105, 99, 107], 357) /- ondblclick -/,
  ([111, 110, 100, 114, 97, 103], 358) /- ondrag -/,
  ([111, 110, 100, 114, 97, 103, 101, 110, 100], 359) /- ondragend -/,
  ([111, 110, 100, 114, 97, 103, 101, 110, 116, 101, 114], 360) /- ondragenter -/,
  ([111, 110, 100, 114, 97, 103, 101, 120, 105, 116], 361) /- ondragexit -/,
  ([111, 110, 100, 114, 97, 103, 108, 101, 97, 118, 101], 362) /- ondragleave -/,
  ([111, 110, 100, 114, 97, 103, 111, 118, 101, 114], 363) /- ondragover -/,
  ([111, 110, 100, 114, 97, 103, 115, 116, 97, 114, 116], 364) /- ondragstart -/,
  ([111, 110, 100, 114, 111, 112], 365) /- ondrop -/,
  ([111, 110, 100, 117, 114, 97, 116, 105, 111, 110, 99, 104, 97, 110, 103, 101], 366) /- ondurationchange -/,
  ([111, 110, 101, 109, 112, 116, 105, 101, 100], 367) /- onemptied -/,
  ([111, 110, 101, 110, 100], 368) /- onend -/,
  ([111, 110, 101, 110, 100, 101, 100], 369) /- onended -/,
  ([111, 110, 101, 114, 114, 111, 114], 370) /- onerror -/,
  ([111, 110, 102, 111, 99, 117, 115], 371) /- onfocus -/,
  ([111, 110, 102, 111, 114, 109, 100, 97, 116, 97], 372) /- onformdata -/,
  ([111, 110, 104, 97, 115, 104, 99, 104, 97, 110, 103, 101], 373) /- onhashchange -/,
  ([111, 110, 105, 110, 112, 117, 116], 374) /- oninput -/,
  ([111, 110, 105, 110, 118, 97, 108, 105, 100], 375) /- oninvalid -/,
  ([111, 110, 107, 101, 121, 100, 111, 119, 110], 376) /- onkeydown -/,
  ([111, 110, 107, 101, 121, 112, 114, 101, 115, 115], 377) /- onkeypress -/,
  ([111, 110, 107, 101, 121, 117, 112], 378) /- onkeyup -/,
  ([111, 110, 108, 97, 110, 103, 117, 97, 103, 101, 99, 104, 97, 110, 103, 101], 379) /- onlanguagechange -/,
  ([111, 110, 108, 111, 97, 100], 380) /- onload -/,
  ([111, 110, 108, 111, 97, 100, 101, 100, 100, 97, 116, 97], 381) /- onloadeddata -/,
  ([111, 110, 108, 111, 97, 100, 101, 100, 109, 101, 116, 97, 100, 97, 116, 97], 382) /- onloadedmetadata -/,
  ([111, 110, 108, 111, 97, 100, 115, 116, 97, 114, 116], 383) /- onloadstart -/,
  ([111, 110, 109, 101, 115, 115, 97, 103, 101], 384) /- onmessage -/,
  ([111, 110, 109, 101, 115, 115, 97, 103, 101, 101, 114, 114, 111, 114], 385) /- onmessageerror -/,
  ([111, 110, 109, 111, 117, 115, 101, 100, 111, 119, 110], 386) /- onmousedown -/,
  ([111, 110, 109, 111, 117, 115, 101, 101, 110, 116, 101, 114], 387) /- onmouseenter -/,
  ([111, 110, 109, 111, 117, 115, 101, 108, 101, 97, 118, 101], 388) /- onmouseleave -/,
  ([111, 110, 109, 111, 117, 115, 101, 109, 111, 118, 101], 389) /- onmousemove -/,
  ([111, 110, 109, 111, 117, 115, 101, 111, 117, 116], 390) /- onmouseout -/,
  ([111, 110, 109, 111, 117, 115, 101, 111, 118, 101, 114], 391) /- onmouseover -/,
  ([111, 110, 109, 111, 117, 115, 101, 117, 112], 392) /- onmouseup -/,
  ([111, 110, 111, 102, 102, 108, 105, 110, 101], 393) /- onoffline -/,
  ([111, 110, 111, 110, 108, 105, 110, 101], 394) /- ononline -/,
  ([111, 110, 112, 97, 103, 101, 104, 105, 100, 101], 395) /- onpagehide -/,
  ([111, 110, 112, 97, 103, 101, 115, 104, 111, 119], 396) /- onpageshow -/,
  ([111, 110, 112, 97, 115, 116, 101], 397) /- onpaste -/,
  ([111, 110, 112, 97, 117, 115, 101], 398) /- onpause -/,
  ([111, 110, 112, 108, 97, 121], 399) /- onplay -/,
  ([111, 110, 112, 108, 97, 121, 105, 110, 103], 400) /- onplaying -/,
  ([111, 110, 112, 111, 112, 115, 116, 97, 116, 101], 401) /- onpopstate -/,
  ([111, 110, 112, 114, 111, 103, 114, 101, 115, 115], 402) /- onprogress -/,
  ([111, 110, 114, 97, 116, 101, 99, 104, 97, 110, 103, 101], 403) /- onratechange -/,
  ([111, 110, 114, 101, 106, 101, 99, 116, 105, 111, 110, 104, 97, 110, 100, 108, 101, 100], 404) /- onrejectionhandled -/,
  ([111, 110, 114, 101, 112, 101, 97, 116], 405) /- onrepeat -/,
  ([111, 110, 114, 101, 115, 101, 116], 406) /- onreset -/,
  ([111, 110, 114, 101, 115, 105, 122, 101], 407) /- onresize -/,
  ([111, 110, 115, 99, 114, 111, 108, 108], 408) /- onscroll -/,
  ([111, 110, 115, 101, 99, 117, 114, 105, 116, 121, 112, 111, 108, 105, 99, 121, 118, 105, 111, 108, 97, 116, 105, 111, 110], 409) /- onsecuritypolicyviolation -/,
  ([111, 110, 115, 101, 101, 107, 101, 100], 410) /- onseeked -/,
  ([111, 110, 115, 101, 101, 107, 105, 110, 103], 411) /- onseeking -/,
  ([111, 110, 115, 101, 108, 101, 99, 116], 412) /- onselect -/,
  ([111, 110, 115, 104, 111, 119], 413) /- onshow -/,
  ([111, 110, 115, 108, 111, 116, 99, 104, 97, 110, 103, 101], 414) /- onslotchange -/,
  ([111, 110, 115, 116, 97, 108, 108, 101, 100], 415) /- onstalled -/,
  ([111, 110, 115, 116, 111, 114, 97, 103, 101], 416) /- onstorage -/,
  ([111, 110, 115, 117, 98, 109, 105, 116], 417) /- onsubmit -/,
  ([111, 110, 115, 117, 115, 112, 101, 110, 100], 418) /- onsuspend -/,
  ([111, 110, 116, 105, 109, 101, 117, 112, 100, 97, 116, 101], 419) /- ontimeupdate -/,
  ([111, 110, 116, 111, 103, 103, 108, 101], 420) /- ontoggle -/,
  ([111, 110, 117, 110, 104, 97, 110, 100, 108, 101, 100, 114, 101, 106, 101, 99, 116, 105, 111, 110], 421) /- onunhandledrejection -/,
  ([111, 110, 117, 110, 108, 111, 97, 100], 422) /- onunload -/,
  ([111, 110, 118, 111, 108, 117, 109, 101, 99, 104, 97, 110, 103, 101], 423) /- onvolumechange -/,
  ([111, 110, 119, 97, 105, 116, 105, 110, 103], 424) /- onwaiting -/,
  ([111, 110, 119, 104, 101, 101, 108], 425) /- onwheel -/,
  ([111, 112, 97, 99, 105, 116, 121], 426) /- opacity -/,
  ([111, 112, 101, 110], 427) /- open -/,
  ([111, 112, 101, 114, 97, 116, 111, 114], 428) /- operator -/,
  ([111, 112, 116, 105, 109, 117, 109], 429) /- optimum -/,
  ([111, 114, 100, 101, 114], 430) /- order -/,
  ([111, 114, 105, 101, 110, 116], 431) /- orient -/,
  ([111, 114, 105, 103, 105, 110], 432) /- origin -/,
  ([111, 116, 104, 101, 114], 433) /- other -/,
  ([111, 118, 101, 114, 102, 108, 111, 119], 434) /- overflow -/,
  ([112, 97, 105, 110, 116, 45, 111, 114, 100, 101, 114], 435) /- paint-order -/,
  ([112, 97, 116, 104], 436) /- path -/,
  ([112, 97, 116, 104, 76, 101, 110, 103, 116, 104], 437) /- pathLength -/,
  ([112, 97, 116, 104, 108, 101, 110, 103, 116, 104], 438) /- pathlength -/,
  ([112, 97, 116, 116, 101, 114, 110], 439) /- pattern -/,
  ([112, 97, 116, 116, 101, 114, 110, 67, 111, 110, 116, 101, 110, 116, 85, 110, 105, 116, 115], 440) /- patternContentUnits -/,
  ([112, 97, 116, 116, 101, 114, 110, 84, 114, 97, 110, 115, 102, 111, 114, 109], 441) /- patternTransform -/,
  ([112, 97, 116, 116, 101, 114, 110, 85, 110, 105, 116, 115], 442) /- patternUnits -/,
  ([112, 97, 116, 116, 101, 114, 110, 99, 111, 110, 116, 101, 110, 116, 117, 110, 105, 116, 115], 443) /- patterncontentunits -/,
  ([112, 97, 116, 116, 101, 114, 110, 116, 114, 97, 110, 115, 102, 111, 114, 109], 444) /- patterntransform -/,
  ([112, 97, 116, 116, 101, 114, 110, 117, 110, 105, 116, 115], 445) /- patternunits -/,
  ([112, 105, 110, 103], 446) /- ping -/,
  ([112, 108, 97, 99, 101, 104, 111, 108, 100, 101, 114], 447) /- placeholder -/,
  ([112, 108, 97, 121, 98, 97, 99, 107, 111, 114, 100, 101, 114], 448) /- playbackorder -/,
  ([112, 108, 97, 121, 115, 105, 110, 108, 105, 110, 101], 449) /- playsinline -/,
  ([112, 111, 105, 110, 116, 101, 114, 45, 101, 118, 101, 110, 116, 115], 450) /- pointer-events -/,
  ([112, 111, 105, 110, 116, 115], 451) /- points -/,
  ([112, 111, 105, 110, 116, 115, 65, 116, 88], 452) /- pointsAtX -/,
  ([112, 111, 105, 110, 116, 115, 65, 116, 89], 453) /- pointsAtY -/,
  ([112, 111, 105, 110, 116, 115, 65, 116, 90], 454) /- pointsAtZ -/,
  ([112, 111, 105, 110, 116, 115, 97, 116, 120], 455) /- pointsatx -/,
  ([112, 111, 105, 110, 116, 115, 97, 116, 121], 456) /- pointsaty -/,
  ([112, 111, 105, 110, 116, 115, 97, 116, 122], 457) /- pointsatz -/,
  ([112, 111, 115, 105, 116, 105, 111, 110], 458) /- position -/,
  ([112, 111, 115, 116, 101, 114], 459) /- poster -/,
  ([112, 114, 101, 108, 111, 97, 100], 460) /- preload -/,
  ([112, 114, 101, 115, 101, 114, 118, 101, 65, 108, 112, 104, 97], 461) /- preserveAlpha -/,
  ([112, 114, 101, 115, 101, 114, 118, 101, 65, 115, 112, 101, 99, 116, 82, 97, 116, 105, 111], 462) /- preserveAspectRatio -/,
  ([112, 114, 101, 115, 101, 114, 118, 101, 97, 108, 112, 104, 97], 463) /- preservealpha -/,
  ([112, 114, 101, 115, 101, 114, 118, 101, 97, 115, 112, 101, 99, 116, 114, 97, 116, 105, 111], 464) /- preserveaspectratio -/,
  ([112, 114, 105, 109, 105, 116, 105, 118, 101, 85, 110, 105, 116, 115], 465) /- primitiveUnits -/,
  ([112, 114, 105, 109, 105, 116, 105, 118, 101, 117, 110, 105, 116, 115], 466) /- primitiveunits -/,
  ([114], 467) /- r -/,
  ([114, 97, 100, 105, 117, 115], 468) /- radius -/,
  ([114, 101, 97, 100, 111, 110, 108, 121], 469) /- readonly -/,
  ([114, 101, 102, 88], 470) /- refX -/,
  ([114, 101, 102, 89], 471) /- refY -/,
  ([114, 101, 102, 101, 114, 114, 101, 114, 112, 111, 108, 105, 99, 121], 472) /- referrerpolicy -/,
  ([114, 101, 102, 120], 473) /- refx -/,
  ([114, 101, 102, 121], 474) /- refy -/,
  ([114, 101, 108], 475) /- rel -/,
  ([114, 101, 112, 101, 97, 116, 67, 111, 117, 110, 116], 476) /- repeatCount -/,
  ([114, 101, 112, 101, 97, 116, 68, 117, 114], 477) /- repeatDur -/,
  ([114, 101, 112, 101, 97, 116, 99, 111, 117, 110, 116], 478) /- repeatcount -/,
  ([114, 101, 112, 101, 97, 116, 100, 117, 114], 479) /- repeatdur -/,
  ([114, 101, 113, 117, 105, 114, 101, 100], 480) /- required -/,
  ([114, 101, 113, 117, 105, 114, 101, 100, 69, 120, 116, 101, 110, 115, 105, 111, 110, 115], 481) /- requiredExtensions -/,
  ([114, 101, 113, 117, 105, 114, 101, 100, 70, 101, 97, 116, 117, 114, 101, 115], 482) /- requiredFeatures -/,
  ([114, 101, 113, 117, 105, 114, 101, 100, 101, 120, 116, 101, 110, 115, 105, 111, 110, 115], 483) /- requiredextensions -/,
  ([114, 101, 113, 117, 105, 114, 101, 100, 102, 101, 97, 116, 117, 114, 101, 115], 484) /- requiredfeatures -/,
  ([114, 101, 115, 116, 97, 114, 116], 485) /- restart -/,
  ([114, 101, 115, 117, 108, 116], 486) /- result -/,
  ([114, 101, 118, 101, 114, 115, 101, 100], 487) /- reversed -/,
  ([114, 105, 103, 104, 116, 111, 118, 101, 114, 104, 97, 110, 103], 488) /- rightoverhang -/,
  ([114, 111, 108, 101], 489) /- role -/,
  ([114, 111, 116, 97, 116, 101], 490) /- rotate -/,
  ([114, 111, 119, 97, 108, 105, 103, 110], 491) /- rowalign -/,
  ([114, 111, 119, 108, 105, 110, 101, 115], 492) /- rowlines -/,
  ([114, 111, 119, 115], 493) /- rows -/,
  ([114, 111, 119, 115, 112, 97, 99, 105, 110, 103], 494) /- rowspacing -/,
  ([114, 111, 119, 115, 112, 97, 110], 495) /- rowspan -/,
  ([114, 113, 117, 111, 116, 101], 496) /- rquote -/,
  ([114, 115, 112, 97, 99, 101], 497) /- rspace -/,
  ([115, 97, 110, 100, 98, 111, 120], 498) /- sandbox -/,
  ([115, 99, 97, 108, 101], 499) /- scale -/,
  ([115, 99, 104, 101, 109, 97, 76, 111, 99, 97, 116, 105, 111, 110], 500) /- schemaLocation -/,
  ([115, 99, 104, 101, 109, 97, 108, 111, 99, 97, 116, 105, 111, 110], 501) /- schemalocation -/,
  ([115, 99, 111, 112, 101], 502) /- scope -/,
  ([115, 99, 114, 105, 112, 116, 108, 101, 118, 101, 108], 503) /- scriptlevel -/,
  ([115, 99, 114, 105, 112, 116, 109, 105, 110, 115, 105, 122, 101], 504) /- scriptminsize -/,
  ([115, 99, 114, 105, 112, 116, 115, 105, 122, 101], 505) /- scriptsize -/,
  ([115, 99, 114, 105, 112, 116, 115, 105, 122, 101, 109, 117, 108, 116, 105, 112, 108, 105, 101, 114], 506) /- scriptsizemultiplier -/,
  ([115, 101, 101, 100], 507) /- seed -/,
  ([115, 101, 108, 101, 99, 116, 101, 100], 508) /- selected -/,
  ([115, 101, 108, 101, 99, 116, 105, 111, 110], 509) /- selection -/,
  ([115, 101, 112, 97, 114, 97, 116, 111, 114], 510) /- separator -/,
  ([115, 101, 112, 97, 114, 97, 116, 111, 114, 115], 511) /- separators -/,
  ([115, 104, 97, 112, 101], 512) /- shape -/,
  ([115, 104, 97, 112, 101, 45, 114, 101, 110, 100, 101, 114, 105, 110, 103], 513) /- shape-rendering -/,
  ([115, 104, 105, 102, 116], 514) /- shift -/,
  ([115, 104, 111, 119], 515) /- show -/,
  ([115, 105, 100, 101], 516) /- side -/,
  ([115, 105, 122, 101], 517) /- size -/,
  ([115, 105, 122, 101, 115], 518) /- sizes -/,
  ([115, 108, 111, 112, 101], 519) /- slope -/,
  ([115, 108, 111, 116], 520) /- slot -/,
  ([115, 112, 97, 99, 101], 521) /- space -/,
  ([115, 112, 97, 99, 105, 110, 103], 522) /- spacing -/,
  ([115, 112, 97, 110], 523) /- span -/,
  ([115, 112, 101, 99, 117, 108, 97, 114, 67, 111, 110, 115, 116, 97, 110, 116], 524) /- specularConstant -/,
  ([115, 112, 101, 99, 117, 108, 97, 114, 69, 120, 112, 111, 110, 101, 110, 116], 525) /- specularExponent -/,
  ([115, 112, 101, 99, 117, 108, 97, 114, 99, 111, 110, 115, 116, 97, 110, 116], 526) /- specularconstant -/,
  ([115, 112, 101, 99, 117, 108, 97, 114, 101, 120, 112, 111, 110, 101, 110, 116], 527) /- specularexponent -/,
  ([115, 112, 101, 108, 108, 99, 104, 101, 99, 107], 528) /- spellcheck -/,
  ([115, 112, 114, 101, 97, 100, 77, 101, 116, 104, 111, 100], 529) /- spreadMethod -/,
  ([115, 112, 114, 101, 97, 100, 109, 101, 116, 104, 111, 100], 530) /- spreadmethod -/,
  ([115, 114, 99], 531) /- src -/,
  ([115, 114, 99, 100, 111, 99], 532) /- srcdoc -/,
  ([115, 114, 99, 108, 97, 110, 103], 533) /- srclang -/,
  ([115, 114, 99, 115, 101, 116], 534) /- srcset -/,
  ([115, 116, 97, 99, 107, 97, 108, 105, 103, 110], 535) /- stackalign -/,
  ([115, 116, 97, 114, 116], 536) /- start -/,
  ([115, 116, 97, 114, 116, 79, 102, 102, 115, 101, 116], 537) /- startOffset -/,
  ([115, 116, 97, 114, 116, 111, 102, 102, 115, 101, 116], 538) /- startoffset -/,
  ([115, 116, 100, 68, 101, 118, 105, 97, 116, 105, 111, 110], 539) /- stdDeviation -/,
  ([115, 116, 100, 100, 101, 118, 105, 97, 116, 105, 111, 110], 540) /- stddeviation -/,
  ([115, 116, 101, 112], 541) /- step -/,
  ([115, 116, 105, 116, 99, 104, 84, 105, 108, 101, 115], 542) /- stitchTiles -/,
  ([115, 116, 105, 116, 99, 104, 116, 105, 108, 101, 115], 543) /- stitchtiles -/,
  ([115, 116, 111, 112, 45, 99, 111, 108, 111, 114], 544) /- stop-color -/,
  ([115, 116, 111, 112, 45, 111, 112, 97, 99, 105, 116, 121], 545) /- stop-opacity -/,
  ([115, 116, 114, 101, 116, 99, 104, 121], 546) /- stretchy -/,
  ([115, 116, 114, 111, 107, 101], 547) /- stroke -/,
  ([115, 116, 114, 111, 107, 101, 45, 100, 97, 115, 104, 97, 114, 114, 97, 121], 548) /- stroke-dasharray -/,
  ([115, 116, 114, 111, 107, 101, 45, 100, 97, 115, 104, 111, 102, 102, 115, 101, 116], 549) /- stroke-dashoffset -/,
  ([115, 116, 114, 111, 107, 101, 45, 108, 105, 110, 101, 99, 97, 112], 550) /- stroke-linecap -/,
  ([115, 116, 114, 111, 107, 101, 45, 108, 105, 110, 101, 106, 111, 105, 110], 551) /- stroke-linejoin -/,
  ([115, 116, 114, 111, 107, 101, 45, 109, 105, 116, 101, 114, 108, 105, 109, 105, 116], 552) /- stroke-miterlimit -/,
  ([115, 116, 114, 111, 107, 101, 45, 111, 112, 97, 99, 105, 116, 121], 553) /- stroke-opacity -/,
  ([115, 116, 114, 111, 107, 101, 45, 119, 105, 100, 116, 104], 554) /- stroke-width -/,
  ([115, 116, 121, 108, 101], 555) /- style -/,
  ([115, 117, 98, 115, 99, 114, 105, 112, 116, 115, 104, 105, 102, 116], 556) /- subscriptshift -/,
  ([115, 117, 112, 101, 114, 115, 99, 114, 105, 112, 116, 115, 104, 105, 102, 116], 557) /- superscriptshift -/,
  ([115, 117, 114, 102, 97, 99, 101, 83, 99, 97, 108, 101], 558) /- surfaceScale -/,
  ([115, 117, 114, 102, 97, 99, 101, 115, 99, 97, 108, 101], 559) /- surfacescale -/,
  ([115, 121, 109, 109, 101, 116, 114, 105, 99], 560) /- symmetric -/,
  ([115, 121, 115, 116, 101, 109, 76, 97, 110, 103, 117, 97, 103, 101], 561) /- systemLanguage -/,
  ([115, 121, 115, 116, 101, 109, 108, 97, 110, 103, 117, 97, 103, 101], 562) /- systemlanguage -/,
  ([116, 97, 98, 105, 110, 100, 101, 120], 563) /- tabindex -/,
  ([116, 97, 98, 108, 101, 86, 97, 108, 117, 101, 115], 564) /- tableValues -/,
  ([116, 97, 98, 108, 101, 118, 97, 108, 117, 101, 115], 565) /- tablevalues -/,
  ([116, 97, 114, 103, 101, 116], 566) /- target -/,
  ([116, 97, 114, 103, 101, 116, 88], 567) /- targetX -/,
  ([116, 97, 114, 103, 101, 116, 89], 568) /- targetY -/,
  ([116, 97, 114, 103, 101, 116, 120], 569) /- targetx -/,
  ([116, 97, 114, 103, 101, 116, 121], 570) /- targety -/,
  ([116, 101, 120, 116, 45, 97, 110, 99, 104, 111, 114], 571) /- text-anchor -/,
  ([116, 101, 120, 116, 45, 100, 101, 99, 111, 114, 97, 116, 105, 111, 110], 572) /- text-decoration -/,
  ([116, 101, 120, 116, 45, 114, 101, 110, 100, 101, 114, 105, 110, 103], 573) /- text-rendering -/,
  ([116, 101, 120, 116, 76, 101, 110, 103, 116, 104], 574) /- textLength -/,
  ([116, 101, 120, 116, 108, 101, 110, 103, 116, 104], 575) /- textlength -/,
  ([116, 104, 105, 99, 107, 109, 97, 116, 104, 115, 112, 97, 99, 101], 576) /- thickmathspace -/,
  ([116, 104, 105, 110, 109, 97, 116, 104, 115, 112, 97, 99, 101], 577) /- thinmathspace -/,
  ([116, 105, 109, 101, 108, 105, 110, 101, 98, 101, 103, 105, 110], 578) /- timelinebegin -/,
  ([116, 105, 116, 108, 101], 579) /- title -/,
  ([116, 111], 580) /- to -/,
  ([116, 114, 97, 110, 115, 102, 111, 114, 109], 581) /- transform -/,
  ([116, 114, 97, 110, 115, 102, 111, 114, 109, 45, 111, 114, 105, 103, 105, 110], 582) /- transform-origin -/,
  ([116, 114, 97, 110, 115, 108, 97, 116, 101], 583) /- translate -/,
  ([116, 121, 112, 101], 584) /- type -/,
  ([117, 110, 105, 99, 111, 100, 101, 45, 98, 105, 100, 105], 585) /- unicode-bidi -/,
  ([117, 115, 101, 109, 97, 112], 586) /- usemap -/,
  ([118, 97, 108, 105, 103, 110], 587) /- valign -/,
  ([118, 97, 108, 117, 101], 588) /- value -/,
  ([118, 97, 108, 117, 101, 115], 589) /- values -/,
  ([118, 101, 99, 116, 111, 114, 45, 101, 102, 102, 101, 99, 116], 590) /- vector-effect -/,
  ([118, 101, 114, 121, 116, 104, 105, 99, 107, 109, 97, 116, 104, 115, 112, 97, 99, 101], 591) /- verythickmathspace -/,
  ([118, 101, 114, 121, 116, 104, 105, 110, 109, 97, 116, 104, 115, 112, 97, 99, 101], 592) /- verythinmathspace -/,
  ([118, 101, 114, 121, 118, 101, 114, 121, 116, 104, 105, 99, 107, 109, 97, 116, 104, 115, 112, 97, 99, 101], 593) /- veryverythickmathspace -/,
  ([118, 101, 114, 121, 118, 101, 114, 121, 116, 104, 105, 110, 109, 97, 116, 104, 115, 112, 97, 99, 101], 594) /- veryverythinmathspace -/,
  ([118, 105, 101, 119, 66, 111, 120], 595) /- viewBox -/,
  ([118, 105, 101, 119, 84, 97, 114, 103, 101, 116], 596) /- viewTarget -/,
  ([118, 105, 101, 119, 98, 111, 120], 597) /- viewbox -/,
  ([118, 105, 101, 119, 116, 97, 114, 103, 101, 116], 598) /- viewtarget -/,
  ([118, 105, 115, 105, 98, 105, 108, 105, 116, 121], 599) /- visibility -/,
  ([118, 111, 102, 102, 115, 101, 116], 600) /- voffset -/,
  ([119, 105, 100, 116, 104], 601) /- width -/,
  ([119, 111, 114, 100, 45, 115, 112, 97, 99, 105, 110, 103], 602) /- word-spacing -/,
  ([119, 114, 97, 112], 603) /- wrap -/,
  ([119, 114, 105, 116, 105, 110, 103, 45, 109, 111, 100, 101], 604) /- writing-mode -/,
  ([120], 605) /- x -/,
  ([120, 49], 606) /- x1 -/,
  ([120, 50], 607) /- x2 -/,
  ([120, 67, 104, 97, 110, 110, 101, 108, 83, 101, 108, 101, 99, 116, 111, 114], 608) /- xChannelSelector -/,
  ([120, 99, 104, 97, 110, 110, 101, 108, 115, 101, 108, 101, 99, 116, 111, 114], 609) /- xchannelselector -/,
  ([120, 108, 105, 110, 107], 610) /- xlink -/,
  ([120, 108, 105, 110, 107, 58, 97, 99, 116, 117, 97, 116, 101], 611) /- xlink:actuate -/,
  ([120, 108, 105, 110, 107, 58, 97, 114, 99, 114, 111, 108, 101], 612) /- xlink:arcrole -/,
  ([120, 108, 105, 110, 107, 58, 104, 114, 101, 102], 613) /- xlink:href -/,
  ([120, 108, 105, 110, 107, 58, 114, 111, 108, 101], 614) /- xlink:role -/,
  ([120, 108, 105, 110, 107, 58, 115, 104, 111, 119], 615) /- xlink:show -/,
  ([120, 108, 105, 110, 107, 58, 116, 105, 116, 108, 101], 616) /- xlink:title -/,
  ([120, 108, 105, 110, 107, 58, 116, 121, 112, 101], 617) /- xlink:type -/,
  ([120, 109, 108], 618) /- xml -/,
  ([120, 109, 108, 58, 108, 97, 110, 103], 619) /- xml:lang -/,
  ([120, 109, 108, 58, 115, 112, 97, 99, 101], 620) /- xml:space -/,
  ([120, 109, 108, 110, 115], 621) /- xmlns -/,
  ([120, 109, 108, 110, 115, 58, 120, 108, 105, 110, 107], 622) /- xmlns:xlink -/,
  ([120, 114, 101, 102], 623) /- xref -/,
  ([120, 115, 105, 58, 115, 99, 104, 101, 109, 97, 76, 111, 99, 97, 116, 105, 111, 110], 624) /- xsi:schemaLocation -/,
  ([120, 115, 105, 58, 115, 99, 104, 101, 109, 97, 108, 111, 99, 97, 116, 105, 111, 110], 625) /- xsi:schemalocation -/,
  ([121], 626) /- y -/,
  ([121, 49], 627) /- y1 -/,
  ([121, 50], 628) /- y2 -/,
  ([121, 67, 104, 97, 110, 110, 101, 108, 83, 101, 108, 101, 99, 116, 111, 114], 629) /- yChannelSelector -/,
  ([121, 99, 104, 97, 110, 110, 101, 108, 115, 101, 108, 101, 99, 116, 111, 114], 630) /- ychannelselector -/,
  ([122], 631) /- z -/,
  ([122, 111, 111, 109, 65, 110, 100, 80, 97, 110], 632) /- zoomAndPan -/,
  ([122, 111, 111, 109, 97, 110, 100, 112, 97, 110], 633) /- zoomandpan -/
]

/-- `attribute_name_tbl` (atom_tbl.cpp:1131-1202). -/
def attrNames : List (List Nat) := [
  [] /-  -/,
  [97, 98, 98, 114] /- abbr -/,
  [97, 99, 99, 101, 110, 116] /- accent -/,
  [97, 99, 99, 101, 110, 116, 117, 110, 100, 101, 114] /- accentunder -/,
  [97, 99, 99, 101, 112, 116] /- accept -/,
  [97, 99, 99, 101, 112, 116, 45, 99, 104, 97, 114, 115, 101, 116] /- accept-charset -/,
  [97, 99, 99, 101, 115, 115, 107, 101, 121] /- accesskey -/,
  [97, 99, 99, 117, 109, 117, 108, 97, 116, 101] /- accumulate -/,
  [97, 99, 116, 105, 111, 110] /- action -/,
  [97, 99, 116, 105, 111, 110, 116, 121, 112, 101] /- actiontype -/,
  [97, 99, 116, 117, 97, 116, 101] /- actuate -/,
  [97, 100, 100, 105, 116, 105, 118, 101] /- additive -/,
  [97, 108, 105, 103, 110] /- align -/,
  [97, 108, 105, 103, 110, 109, 101, 110, 116, 45, 98, 97, 115, 101, 108, 105, 110, 101] /- alignment-baseline -/,
  [97, 108, 105, 103, 110, 109, 101, 110, 116, 115, 99, 111, 112, 101] /- alignmentscope -/,
  [97, 108, 108, 111, 119] /- allow -/,
  [97, 108, 108, 111, 119, 102, 117, 108, 108, 115, 99, 114, 101, 101, 110] /- allowfullscreen -/,
  [97, 108, 108, 111, 119, 112, 97, 121, 109, 101, 110, 116, 114, 101, 113, 117, 101, 115, 116] /- allowpaymentrequest -/,
  [97, 108, 116] /- alt -/,
  [97, 108, 116, 105, 109, 103] /- altimg -/,
  [97, 108, 116, 105, 109, 103, 45, 104, 101, 105, 103, 104, 116] /- altimg-height -/,
  [97, 108, 116, 105, 109, 103, 45, 118, 97, 108, 105, 103, 110] /- altimg-valign -/,
  [97, 108, 116, 105, 109, 103, 45, 119, 105, 100, 116, 104] /- altimg-width -/,
  [97, 108, 116, 116, 101, 120, 116] /- alttext -/,
  [97, 109, 112, 108, 105, 116, 117, 100, 101] /- amplitude -/,
  [97, 110, 110, 111, 116, 97, 116, 105, 111, 110, 45, 120, 109, 108] /- annotation-xml -/,
  [97, 114, 99, 114, 111, 108, 101] /- arcrole -/,
  [97, 114, 105, 97, 45, 97, 99, 116, 105, 118, 101, 100, 101, 115, 99, 101, 110, 100, 97, 110, 116] /- aria-activedescendant -/,
  [97, 114, 105, 97, 45, 97, 116, 111, 109, 105, 99] /- aria-atomic -/,
  [97, 114, 105, 97, 45, 97, 117, 116, 111, 99, 111, 109, 112, 108, 101, 116, 101] /- aria-autocomplete -/,
  [97, 114, 105, 97, 45, 98, 117, 115, 121] /- aria-busy -/,
  [97, 114, 105, 97, 45, 99, 104, 101, 99, 107, 101, 100] /- aria-checked -/,
  [97, 114, 105, 97, 45, 99, 111, 108, 99, 111, 117, 110, 116] /- aria-colcount -/,
  [97, 114, 105, 97, 45, 99, 111, 108, 105, 110, 100, 101, 120] /- aria-colindex -/,
  [97, 114, 105, 97, 45, 99, 111, 108, 115, 112, 97, 110] /- aria-colspan -/,
  [97, 114, 105, 97, 45, 99, 111, 110, 116, 114, 111, 108, 115] /- aria-controls -/,
  [97, 114, 105, 97, 45, 99, 117, 114, 114, 101, 110, 116] /- aria-current -/,
  [97, 114, 105, 97, 45, 100, 101, 115, 99, 114, 105, 98, 101, 100, 98, 121] /- aria-describedby -/,
  [97, 114, 105, 97, 45, 100, 101, 116, 97, 105, 108, 115] /- aria-details -/,
  [97, 114, 105, 97, 45, 100, 105, 115, 97, 98, 108, 101, 100] /- aria-disabled -/,
  [97, 114, 105, 97, 45, 100, 114, 111, 112, 101, 102, 102, 101, 99, 116] /- aria-dropeffect -/,
  [97, 114, 105, 97, 45, 101, 114, 114, 111, 114, 109, 101, 115, 115, 97, 103, 101] /- aria-errormessage -/,
  [97, 114, 105, 97, 45, 101, 120, 112, 97, 110, 100, 101, 100] /- aria-expanded -/,
  [97, 114, 105, 97, 45, 102, 108, 111, 119, 116, 111] /- aria-flowto -/,
  [97, 114, 105, 97, 45, 103, 114, 97, 98, 98, 101, 100] /- aria-grabbed -/,
  [97, 114, 105, 97, 45, 104, 97, 115, 112, 111, 112, 117, 112] /- aria-haspopup -/,
  [97, 114, 105, 97, 45, 104, 105, 100, 100, 101, 110] /- aria-hidden -/,
  [97, 114, 105, 97, 45, 105, 110, 118, 97, 108, 105, 100] /- aria-invalid -/,
  [97, 114, 105, 97, 45, 107, 101, 121, 115, 104, 111, 114, 116, 99, 117, 116, 115] /- aria-keyshortcuts -/,
  [97, 114, 105, 97, 45, 108, 97, 98, 101, 108] /- aria-label -/,
  [97, 114, 105, 97, 45, 108, 97, 98, 101, 108, 108, 101, 100, 98, 121] /- aria-labelledby -/,
  [97, 114, 105, 97, 45, 108, 101, 118, 101, 108] /- aria-level -/,
  [97, 114, 105, 97, 45, 108, 105, 118, 101] /- aria-live -/,
  [97, 114, 105, 97, 45, 109, 111, 100, 97, 108] /- aria-modal -/,
  [97, 114, 105, 97, 45, 109, 117, 108, 116, 105, 108, 105, 110, 101] /- aria-multiline -/,
  [97, 114, 105, 97, 45, 109, 117, 108, 116, 105, 115, 101, 108, 101, 99, 116, 97, 98, 108, 101] /- aria-multiselectable -/,
  [97, 114, 105, 97, 45, 111, 114, 105, 101, 110, 116, 97, 116, 105, 111, 110] /- aria-orientation -/,
  [97, 114, 105, 97, 45, 111, 119, 110, 115] /- aria-owns -/,
  [97, 114, 105, 97, 45, 112, 108, 97, 99, 101, 104, 111, 108, 100, 101, 114] /- aria-placeholder -/,
  [97, 114, 105, 97, 45, 112, 111, 115, 105, 110, 115, 101, 116] /- aria-posinset -/,
  [97, 114, 105, 97, 45, 112, 114, 101, 115, 115, 101, 100] /- aria-pressed -/,
  [97, 114, 105, 97, 45, 114, 101, 97, 100, 111, 110, 108, 121] /- aria-readonly -/,
  [97, 114, 105, 97, 45, 114, 101, 108, 101, 118, 97, 110, 116] /- aria-relevant -/,
  [97, 114, 105, 97, 45, 114, 101, 113, 117, 105, 114, 101, 100] /- aria-required -/,
  [97, 114, 105, 97, 45, 114, 111, 108, 101, 100, 101, 115, 99, 114, 105, 112, 116, 105, 111, 110] /- aria-roledescription -/,
  [97, 114, 105, 97, 45, 114, 111, 119, 99, 111, 117, 110, 116] /- aria-rowcount -/,
  [97, 114, 105, 97, 45, 114, 111, 119, 105, 110, 100, 101, 120] /- aria-rowindex -/,
  [97, 114, 105, 97, 45, 114, 111, 119, 115, 112, 97, 110] /- aria-rowspan -/,
  [97, 114, 105, 97, 45, 115, 101, 108, 101, 99, 116, 101, 100] /- aria-selected -/,
  [97, 114, 105, 97, 45, 115, 101, 116, 115, 105, 122, 101] /- aria-setsize -/,
  [97, 114, 105, 97, 45, 115, 111, 114, 116] /- aria-sort -/,
  [97, 114, 105, 97, 45, 118, 97, 108, 117, 101, 109, 97, 120] /- aria-valuemax -/,
  [97, 114, 105, 97, 45, 118, 97, 108, 117, 101, 109, 105, 110] /- aria-valuemin -/,
  [97, 114, 105, 97, 45, 118, 97, 108, 117, 101, 110, 111, 119] /- aria-valuenow -/,
  [97, 114, 105, 97, 45, 118, 97, 108, 117, 101, 116, 101, 120, 116] /- aria-valuetext -/,
  [97, 115] /- as -/,
  [97, 115, 121, 110, 99] /- async -/,
  [97, 116, 116, 114, 105, 98, 117, 116, 101, 78, 97, 109, 101] /- attributeName -/,
  [97, 116, 116, 114, 105, 98, 117, 116, 101, 84, 121, 112, 101] /- attributeType -/,
  [97, 116, 116, 114, 105, 98, 117, 116, 101, 110, 97, 109, 101] /- attributename -/,
  [97, 116, 116, 114, 105, 98, 117, 116, 101, 116, 121, 112, 101] /- attributetype -/,
  [97, 117, 116, 111, 99, 97, 112, 105, 116, 97, 108, 105, 122, 101] /- autocapitalize -/,
  [97, 117, 116, 111, 99, 111, 109, 112, 108, 101, 116, 101] /- autocomplete -/,
  [97, 117, 116, 111, 102, 111, 99, 117, 115] /- autofocus -/,
  [97, 117, 116, 111, 112, 108, 97, 121] /- autoplay -/,
  [97, 122, 105, 109, 117, 116, 104] /- azimuth -/,
  [98, 97, 99, 107, 103, 114, 111, 117, 110, 100] /- background -/,
  [98, 97, 115, 101] /- base -/,
  [98, 97, 115, 101, 70, 114, 101, 113, 117, 101, 110, 99, 121] /- baseFrequency -/,
  [98, 97, 115, 101, 80, 114, 111, 102, 105, 108, 101] /- baseProfile -/,
  [98, 97, 115, 101, 102, 114, 101, 113, 117, 101, 110, 99, 121] /- basefrequency -/,
  [98, 97, 115, 101, 108, 105, 110, 101] /- baseline -/,
  [98, 97, 115, 101, 108, 105, 110, 101, 45, 115, 104, 105, 102, 116] /- baseline-shift -/,
  [98, 97, 115, 101, 112, 114, 111, 102, 105, 108, 101] /- baseprofile -/,
  [98, 101, 103, 105, 110] /- begin -/,
  [98, 101, 118, 101, 108, 108, 101, 100] /- bevelled -/,
  [98, 105, 97, 115] /- bias -/,
  [98, 121] /- by -/,
  [99, 97, 108, 99, 77, 111, 100, 101] /- calcMode -/,
  [99, 97, 108, 99, 109, 111, 100, 101] /- calcmode -/,
  [99, 100] /- cd -/,
  [99, 100, 103, 114, 111, 117, 112] /- cdgroup -/,
  [99, 104, 97, 114, 97, 108, 105, 103, 110] /- charalign -/,
  [99, 104, 97, 114, 115, 101, 116] /- charset -/,
  [99, 104, 97, 114, 115, 112, 97, 99, 105, 110, 103] /- charspacing -/,
  [99, 104, 101, 99, 107, 101, 100] /- checked -/,
  [99, 105, 116, 101] /- cite -/,
  [99, 108, 97, 115, 115] /- class -/,
  [99, 108, 105, 112] /- clip -/,
  [99, 108, 105, 112, 45, 112, 97, 116, 104] /- clip-path -/,
  [99, 108, 105, 112, 45, 114, 117, 108, 101] /- clip-rule -/,
  [99, 108, 105, 112, 80, 97, 116, 104, 85, 110, 105, 116, 115] /- clipPathUnits -/,
  [99, 108, 105, 112, 112, 97, 116, 104, 117, 110, 105, 116, 115] /- clippathunits -/,
  [99, 108, 111, 115, 101] /- close -/,
  [99, 108, 111, 115, 117, 114, 101] /- closure -/,
  [99, 111, 108, 111, 114] /- color -/,
  [99, 111, 108, 111, 114, 45, 105, 110, 116, 101, 114, 112, 111, 108, 97, 116, 105, 111, 110] /- color-interpolation -/,
  [99, 111, 108, 111, 114, 45, 105, 110, 116, 101, 114, 112, 111, 108, 97, 116, 105, 111, 110, 45, 102, 105, 108, 116, 101, 114, 115] /- color-interpolation-filters -/,
  [99, 111, 108, 115] /- cols -/,
  [99, 111, 108, 115, 112, 97, 110] /- colspan -/,
  [99, 111, 108, 117, 109, 110, 97, 108, 105, 103, 110] /- columnalign -/,
  [99, 111, 108, 117, 109, 110, 97, 108, 105, 103, 110, 109, 101, 110, 116] /- columnalignment -/,
  [99, 111, 108, 117, 109, 110, 108, 105, 110, 101, 115] /- columnlines -/,
  [99, 111, 108, 117, 109, 110, 115, 112, 97, 99, 105, 110, 103] /- columnspacing -/,
  [99, 111, 108, 117, 109, 110, 115, 112, 97, 110] /- columnspan -/,
  [99, 111, 108, 117, 109, 110, 119, 105, 100, 116, 104] /- columnwidth -/,
  [99, 111, 110, 116, 101, 110, 116] /- content -/,
  [99, 111, 110, 116, 101, 110, 116, 101, 100, 105, 116, 97, 98, 108, 101] /- contenteditable -/,
  [99, 111, 110, 116, 114, 111, 108, 115] /- controls -/,
  [99, 111, 111, 114, 100, 115] /- coords -/,
  [99, 114, 111, 115, 115, 111, 114, 105, 103, 105, 110] /- crossorigin -/,
  [99, 114, 111, 115, 115, 111, 117, 116] /- crossout -/,
  [99, 117, 114, 115, 111, 114] /- cursor -/,
  [99, 120] /- cx -/,
  [99, 121] /- cy -/,
  [100, 97, 116, 97] /- data -/,
  [100, 97, 116, 101, 116, 105, 109, 101] /- datetime -/,
  [100, 101, 99, 105, 109, 97, 108, 112, 111, 105, 110, 116] /- decimalpoint -/,
  [100, 101, 99, 111, 100, 105, 110, 103] /- decoding -/,
  [100, 101, 102, 97, 117, 108, 116] /- default -/,
  [100, 101, 102, 101, 114] /- defer -/,
  [100, 101, 102, 105, 110, 105, 116, 105, 111, 110, 85, 82, 76] /- definitionURL -/,
  [100, 101, 102, 105, 110, 105, 116, 105, 111, 110, 117, 114, 108] /- definitionurl -/,
  [100, 101, 110, 111, 109, 97, 108, 105, 103, 110] /- denomalign -/,
  [100, 101, 112, 116, 104] /- depth -/,
  [100, 105, 102, 102, 117, 115, 101, 67, 111, 110, 115, 116, 97, 110, 116] /- diffuseConstant -/,
  [100, 105, 102, 102, 117, 115, 101, 99, 111, 110, 115, 116, 97, 110, 116] /- diffuseconstant -/,
  [100, 105, 114] /- dir -/,
  [100, 105, 114, 101, 99, 116, 105, 111, 110] /- direction -/,
  [100, 105, 114, 110, 97, 109, 101] /- dirname -/,
  [100, 105, 115, 97, 98, 108, 101, 100] /- disabled -/,
  [100, 105, 115, 112, 108, 97, 121] /- display -/,
  [100, 105, 115, 112, 108, 97, 121, 115, 116, 121, 108, 101] /- displaystyle -/,
  [100, 105, 118, 105, 115, 111, 114] /- divisor -/,
  [100, 111, 109, 105, 110, 97, 110, 116, 45, 98, 97, 115, 101, 108, 105, 110, 101] /- dominant-baseline -/,
  [100, 111, 119, 110, 108, 111, 97, 100] /- download -/,
  [100, 114, 97, 103, 103, 97, 98, 108, 101] /- draggable -/,
  [100, 117, 114] /- dur -/,
  [100, 120] /- dx -/,
  [100, 121] /- dy -/,
  [101, 100, 103, 101] /- edge -/,
  [101, 100, 103, 101, 77, 111, 100, 101] /- edgeMode -/,
  [101, 100, 103, 101, 109, 111, 100, 101] /- edgemode -/,
  [101, 108, 101, 118, 97, 116, 105, 111, 110] /- elevation -/,
  [101, 110, 99, 111, 100, 105, 110, 103] /- encoding -/,
  [101, 110, 99, 116, 121, 112, 101] /- enctype -/,
  [101, 110, 100] /- end -/,
  [101, 110, 116, 101, 114, 107, 101, 121, 104, 105, 110, 116] /- enterkeyhint -/,
  [101, 113, 117, 97, 108, 99, 111, 108, 117, 109, 110, 115] /- equalcolumns -/,
  [101, 113, 117, 97, 108, 114, 111, 119, 115] /- equalrows -/,
  [101, 120, 112, 111, 110, 101, 110, 116] /- exponent -/,
  [102, 101, 110, 99, 101] /- fence -/,
  [102, 105, 108, 108] /- fill -/,
  [102, 105, 108, 108, 45, 111, 112, 97, 99, 105, 116, 121] /- fill-opacity -/,
  [102, 105, 108, 108, 45, 114, 117, 108, 101] /- fill-rule -/,
  [102, 105, 108, 116, 101, 114] /- filter -/,
  [102, 105, 108, 116, 101, 114, 85, 110, 105, 116, 115] /- filterUnits -/,
  [102, 105, 108, 116, 101, 114, 117, 110, 105, 116, 115] /- filterunits -/,
  [102, 108, 111, 111, 100, 45, 99, 111, 108, 111, 114] /- flood-color -/,
  [102, 108, 111, 111, 100, 45, 111, 112, 97, 99, 105, 116, 121] /- flood-opacity -/,
  [102, 111, 110, 116, 45, 102, 97, 109, 105, 108, 121] /- font-family -/,
  [102, 111, 110, 116, 45, 115, 105, 122, 101] /- font-size -/,
  [102, 111, 110, 116, 45, 115, 105, 122, 101, 45, 97, 100, 106, 117, 115, 116] /- font-size-adjust -/,
  [102, 111, 110, 116, 45, 115, 116, 114, 101, 116, 99, 104] /- font-stretch -/,
  [102, 111, 110, 116, 45, 115, 116, 121, 108, 101] /- font-style -/,
  [102, 111, 110, 116, 45, 118, 97, 114, 105, 97, 110, 116] /- font-variant -/,
  [102, 111, 110, 116, 45, 119, 101, 105, 103, 104, 116] /- font-weight -/,
  [102, 111, 110, 116, 102, 97, 109, 105, 108, 121] /- fontfamily -/,
  [102, 111, 110, 116, 115, 105, 122, 101] /- fontsize -/,
  [102, 111, 110, 116, 115, 116, 121, 108, 101] /- fontstyle -/,
  [102, 111, 110, 116, 119, 101, 105, 103, 104, 116] /- fontweight -/,
  [102, 111, 114] /- for -/,
  [102, 111, 114, 109] /- form -/,
  [102, 111, 114, 109, 97, 99, 116, 105, 111, 110] /- formaction -/,
  [102, 111, 114, 109, 101, 110, 99, 116, 121, 112, 101] /- formenctype -/,
  [102, 111, 114, 109, 109, 101, 116, 104, 111, 100] /- formmethod -/,
  [102, 111, 114, 109, 110, 111, 118, 97, 108, 105, 100, 97, 116, 101] /- formnovalidate -/,
  [102, 111, 114, 109, 116, 97, 114, 103, 101, 116] /- formtarget -/,
  [102, 114] /- fr -/,
  [102, 114, 97, 109, 101] /- frame -/,
  [102, 114, 97, 109, 101, 115, 112, 97, 99, 105, 110, 103] /- framespacing -/,
  [102, 114, 111, 109] /- from -/,
  [102, 120] /- fx -/,
  [102, 121] /- fy -/,
  [103, 108, 121, 112, 104, 45, 111, 114, 105, 101, 110, 116, 97, 116, 105, 111, 110, 45, 104, 111, 114, 105, 122, 111, 110, 116, 97, 108] /- glyph-orientation-horizontal -/,
  [103, 108, 121, 112, 104, 45, 111, 114, 105, 101, 110, 116, 97, 116, 105, 111, 110, 45, 118, 101, 114, 116, 105, 99, 97, 108] /- glyph-orientation-vertical -/,
  [103, 108, 121, 112, 104, 82, 101, 102] /- glyphRef -/,
  [103, 108, 121, 112, 104, 114, 101, 102] /- glyphref -/,
  [103, 114, 97, 100, 105, 101, 110, 116, 84, 114, 97, 110, 115, 102, 111, 114, 109] /- gradientTransform -/,
  [103, 114, 97, 100, 105, 101, 110, 116, 85, 110, 105, 116, 115] /- gradientUnits -/,
  [103, 114, 97, 100, 105, 101, 110, 116, 116, 114, 97, 110, 115, 102, 111, 114, 109] /- gradienttransform -/,
  [103, 114, 97, 100, 105, 101, 110, 116, 117, 110, 105, 116, 115] /- gradientunits -/,
  [103, 114, 111, 117, 112, 97, 108, 105, 103, 110] /- groupalign -/,
  [104, 101, 97, 100, 101, 114, 115] /- headers -/,
  [104, 101, 105, 103, 104, 116] /- height -/,
  [104, 105, 100, 100, 101, 110] /- hidden -/,
  [104, 105, 103, 104] /- high -/,
  [104, 114, 101, 102] /- href -/,
  [104, 114, 101, 102, 108, 97, 110, 103] /- hreflang -/,
  [104, 116, 116, 112, 45, 101, 113, 117, 105, 118] /- http-equiv -/,
  [105, 100] /- id -/,
  [105, 109, 97, 103, 101, 45, 114, 101, 110, 100, 101, 114, 105, 110, 103] /- image-rendering -/,
  [105, 109, 97, 103, 101, 115, 105, 122, 101, 115] /- imagesizes -/,
  [105, 109, 97, 103, 101, 115, 114, 99, 115, 101, 116] /- imagesrcset -/,
  [105, 110] /- in -/,
  [105, 110, 50] /- in2 -/,
  [105, 110, 100, 101, 110, 116, 97, 108, 105, 103, 110] /- indentalign -/,
  [105, 110, 100, 101, 110, 116, 97, 108, 105, 103, 110, 102, 105, 114, 115, 116] /- indentalignfirst -/,
  [105, 110, 100, 101, 110, 116, 97, 108, 105, 103, 110, 108, 97, 115, 116] /- indentalignlast -/,
  [105, 110, 100, 101, 110, 116, 115, 104, 105, 102, 116] /- indentshift -/,
  [105, 110, 100, 101, 110, 116, 115, 104, 105, 102, 116, 102, 105, 114, 115, 116] /- indentshiftfirst -/,
  [105, 110, 100, 101, 110, 116, 115, 104, 105, 102, 116, 108, 97, 115, 116] /- indentshiftlast -/,
  [105, 110, 100, 101, 110, 116, 116, 97, 114, 103, 101, 116] /- indenttarget -/,
  [105, 110, 100, 101, 120] /- index -/,
  [105, 110, 102, 105, 120, 108, 105, 110, 101, 98, 114, 101, 97, 107, 115, 116, 121, 108, 101] /- infixlinebreakstyle -/,
  [105, 110, 112, 117, 116, 109, 111, 100, 101] /- inputmode -/,
  [105, 110, 116, 101, 103, 101, 114] /- integer -/,
  [105, 110, 116, 101, 103, 114, 105, 116, 121] /- integrity -/,
  [105, 110, 116, 101, 114, 99, 101, 112, 116] /- intercept -/,
  [105, 115] /- is -/,
  [105, 115, 109, 97, 112] /- ismap -/,
  [105, 116, 101, 109, 105, 100] /- itemid -/,
  [105, 116, 101, 109, 112, 114, 111, 112] /- itemprop -/,
  [105, 116, 101, 109, 114, 101, 102] /- itemref -/,
  [105, 116, 101, 109, 115, 99, 111, 112, 101] /- itemscope -/,
  [105, 116, 101, 109, 116, 121, 112, 101] /- itemtype -/,
  [107, 49] /- k1 -/,
  [107, 50] /- k2 -/,
  [107, 51] /- k3 -/,
  [107, 52] /- k4 -/,
  [107, 101, 114, 110, 101, 108, 77, 97, 116, 114, 105, 120] /- kernelMatrix -/,
  [107, 101, 114, 110, 101, 108, 85, 110, 105, 116, 76, 101, 110, 103, 116, 104] /- kernelUnitLength -/,
  [107, 101, 114, 110, 101, 108, 109, 97, 116, 114, 105, 120] /- kernelmatrix -/,
  [107, 101, 114, 110, 101, 108, 117, 110, 105, 116, 108, 101, 110, 103, 116, 104] /- kernelunitlength -/,
  [107, 101, 121, 80, 111, 105, 110, 116, 115] /- keyPoints -/,
  [107, 101, 121, 83, 112, 108, 105, 110, 101, 115] /- keySplines -/,
  [107, 101, 121, 84, 105, 109, 101, 115] /- keyTimes -/,
  [107, 101, 121, 112, 111, 105, 110, 116, 115] /- keypoints -/,
  [107, 101, 121, 115, 112, 108, 105, 110, 101, 115] /- keysplines -/,
  [107, 101, 121, 116, 105, 109, 101, 115] /- keytimes -/,
  [107, 105, 110, 100] /- kind -/,
  [108, 97, 98, 101, 108] /- label -/,
  [108, 97, 110, 103] /- lang -/,
  [108, 97, 114, 103, 101, 111, 112] /- largeop -/,
  [108, 101, 102, 116, 111, 118, 101, 114, 104, 97, 110, 103] /- leftoverhang -/,
  [108, 101, 110, 103, 116, 104] /- length -/,
  [108, 101, 110, 103, 116, 104, 65, 100, 106, 117, 115, 116] /- lengthAdjust -/,
  [108, 101, 110, 103, 116, 104, 97, 100, 106, 117, 115, 116] /- lengthadjust -/,
  [108, 101, 116, 116, 101, 114, 45, 115, 112, 97, 99, 105, 110, 103] /- letter-spacing -/,
  [108, 105, 103, 104, 116, 105, 110, 103, 45, 99, 111, 108, 111, 114] /- lighting-color -/,
  [108, 105, 109, 105, 116, 105, 110, 103, 67, 111, 110, 101, 65, 110, 103, 108, 101] /- limitingConeAngle -/,
  [108, 105, 109, 105, 116, 105, 110, 103, 99, 111, 110, 101, 97, 110, 103, 108, 101] /- limitingconeangle -/,
  [108, 105, 110, 101, 98, 114, 101, 97, 107] /- linebreak -/,
  [108, 105, 110, 101, 98, 114, 101, 97, 107, 109, 117, 108, 116, 99, 104, 97, 114] /- linebreakmultchar -/,
  [108, 105, 110, 101, 98, 114, 101, 97, 107, 115, 116, 121, 108, 101] /- linebreakstyle -/,
  [108, 105, 110, 101, 108, 101, 97, 100, 105, 110, 103] /- lineleading -/,
  [108, 105, 110, 101, 116, 104, 105, 99, 107, 110, 101, 115, 115] /- linethickness -/,
  [108, 105, 115, 116] /- list -/,
  [108, 111, 97, 100, 105, 110, 103] /- loading -/,
  [108, 111, 99, 97, 116, 105, 111, 110] /- location -/,
  [108, 111, 110, 103, 100, 105, 118, 115, 116, 121, 108, 101] /- longdivstyle -/,
  [108, 111, 111, 112] /- loop -/,
  [108, 111, 119] /- low -/,
  [108, 113, 117, 111, 116, 101] /- lquote -/,
  [108, 115, 112, 97, 99, 101] /- lspace -/,
  [108, 116, 114] /- ltr -/,
  [109, 97, 99, 114, 111, 115] /- macros -/,
  [109, 97, 110, 105, 102, 101, 115, 116] /- manifest -/,
  [109, 97, 114, 107, 101, 114, 45, 101, 110, 100] /- marker-end -/,
  [109, 97, 114, 107, 101, 114, 45, 109, 105, 100] /- marker-mid -/,
  [109, 97, 114, 107, 101, 114, 45, 115, 116, 97, 114, 116] /- marker-start -/,
  [109, 97, 114, 107, 101, 114, 72, 101, 105, 103, 104, 116] /- markerHeight -/,
  [109, 97, 114, 107, 101, 114, 85, 110, 105, 116, 115] /- markerUnits -/,
  [109, 97, 114, 107, 101, 114, 87, 105, 100, 116, 104] /- markerWidth -/,
  [109, 97, 114, 107, 101, 114, 104, 101, 105, 103, 104, 116] /- markerheight -/,
  [109, 97, 114, 107, 101, 114, 117, 110, 105, 116, 115] /- markerunits -/,
  [109, 97, 114, 107, 101, 114, 119, 105, 100, 116, 104] /- markerwidth -/,
  [109, 97, 115, 107] /- mask -/,
  [109, 97, 115, 107, 45, 116, 121, 112, 101] /- mask-type -/,
  [109, 97, 115, 107, 67, 111, 110, 116, 101, 110, 116, 85, 110, 105, 116, 115] /- maskContentUnits -/,
  [109, 97, 115, 107, 85, 110, 105, 116, 115] /- maskUnits -/,
  [109, 97, 115, 107, 99, 111, 110, 116, 101, 110, 116, 117, 110, 105, 116, 115] /- maskcontentunits -/,
  [109, 97, 115, 107, 117, 110, 105, 116, 115] /- maskunits -/,
  [109, 97, 116, 104] /- math -/,
  [109, 97, 116, 104, 32, 101, 108, 101, 109, 101, 110, 116] /- math element -/,
  [109, 97, 116, 104, 98, 97, 99, 107, 103, 114, 111, 117, 110, 100] /- mathbackground -/,
  [109, 97, 116, 104, 99, 111, 108, 111, 114] /- mathcolor -/,
  [109, 97, 116, 104, 115, 105, 122, 101] /- mathsize -/,
  [109, 97, 116, 104, 118, 97, 114, 105, 97, 110, 116] /- mathvariant -/,
  [109, 97, 120] /- max -/,
  [109, 97, 120, 108, 101, 110, 103, 116, 104] /- maxlength -/,
  [109, 97, 120, 115, 105, 122, 101] /- maxsize -/,
  [109, 97, 120, 119, 105, 100, 116, 104] /- maxwidth -/,
  [109, 101, 100, 105, 97] /- media -/,
  [109, 101, 100, 105, 117, 109, 109, 97, 116, 104, 115, 112, 97, 99, 101] /- mediummathspace -/,
  [109, 101, 110, 99, 108, 111, 115, 101] /- menclose -/,
  [109, 101, 116, 104, 111, 100] /- method -/,
  [109, 105, 110] /- min -/,
  [109, 105, 110, 108, 97, 98, 101, 108, 115, 112, 97, 99, 105, 110, 103] /- minlabelspacing -/,
  [109, 105, 110, 108, 101, 110, 103, 116, 104] /- minlength -/,
  [109, 105, 110, 115, 105, 122, 101] /- minsize -/,
  [109, 111, 100, 101] /- mode -/,
  [109, 111, 118, 97, 98, 108, 101, 108, 105, 109, 105, 116, 115] /- movablelimits -/,
  [109, 115, 103, 114, 111, 117, 112] /- msgroup -/,
  [109, 115, 108, 105, 110, 101, 116, 104, 105, 99, 107, 110, 101, 115, 115] /- mslinethickness -/,
  [109, 117, 108, 116, 105, 112, 108, 101] /- multiple -/,
  [109, 117, 116, 101, 100] /- muted -/,
  [110, 97, 109, 101] /- name -/,
  [110, 97, 114, 103, 115] /- nargs -/,
  [110, 101, 119, 108, 105, 110, 101] /- newline -/,
  [110, 111, 109, 111, 100, 117, 108, 101] /- nomodule -/,
  [110, 111, 110, 99, 101] /- nonce -/,
  [110, 111, 116, 97, 116, 105, 111, 110] /- notation -/,
  [110, 111, 118, 97, 108, 105, 100, 97, 116, 101] /- novalidate -/,
  [110, 117, 109, 79, 99, 116, 97, 118, 101, 115] /- numOctaves -/,
  [110, 117, 109, 97, 108, 105, 103, 110] /- numalign -/,
  [110, 117, 109, 98, 101, 114] /- number -/,
  [110, 117, 109, 111, 99, 116, 97, 118, 101, 115] /- numoctaves -/,
  [111, 99, 99, 117, 114, 114, 101, 110, 99, 101] /- occurrence -/,
  [111, 102, 102, 115, 101, 116] /- offset -/,
  [111, 110, 97, 98, 111, 114, 116] /- onabort -/,
  [111, 110, 97, 102, 116, 101, 114, 112, 114, 105, 110, 116] /- onafterprint -/,
  [111, 110, 97, 117, 120, 99, 108, 105, 99, 107] /- onauxclick -/,
  [111, 110, 98, 101, 102, 111, 114, 101, 112, 114, 105, 110, 116] /- onbeforeprint -/,
  [111, 110, 98, 101, 102, 111, 114, 101, 117, 110, 108, 111, 97, 100] /- onbeforeunload -/,
  [111, 110, 98, 101, 103, 105, 110] /- onbegin -/,
  [111, 110, 98, 108, 117, 114] /- onblur -/,
  [111, 110, 99, 97, 110, 99, 101, 108] /- oncancel -/,
  [111, 110, 99, 97, 110, 112, 108, 97, 121] /- oncanplay -/,
  [111, 110, 99, 97, 110, 112, 108, 97, 121, 116, 104, 114, 111, 117, 103, 104] /- oncanplaythrough -/,
  [111, 110, 99, 104, 97, 110, 103, 101] /- onchange -/,
  [111, 110, 99, 108, 105, 99, 107] /- onclick -/,
  [111, 110, 99, 108, 111, 115, 101] /- onclose -/,
  [111, 110, 99, 111, 110, 116, 101, 120, 116, 109, 101, 110, 117] /- oncontextmenu -/,
  [111, 110, 99, 111, 112, 121] /- oncopy -/,
  [111, 110, 99, 117, 101, 99, 104, 97, 110, 103, 101] /- oncuechange -/,
  [111, 110, 99, 117, 116] /- oncut -/,
  [111, 110, 100, 98, 108, 99, 108, 105, 99, 107] /- ondblclick -/,
  [111, 110, 100, 114, 97, 103] /- ondrag -/,
  [111, 110, 100, 114, 97, 103, 101, 110, 100] /- ondragend -/,
  [111, 110, 100, 114, 97, 103, 101, 110, 116, 101, 114] /- ondragenter -/,
  [111, 110, 100, 114, 97, 103, 101, 120, 105, 116] /- ondragexit -/,
  [111, 110, 100, 114, 97, 103, 108, 101, 97, 118, 101] /- ondragleave -/,
  [111, 110, 100, 114, 97, 103, 111, 118, 101, 114] /- ondragover -/,
  [111, 110, 100, 114, 97, 103, 115, 116, 97, 114, 116] /- ondragstart -/,
  [111, 110, 100, 114, 111, 112] /- ondrop -/,
  [111, 110, 100, 117, 114, 97, 116, 105, 111, 110, 99, 104, 97, 110, 103, 101] /- ondurationchange -/,
  [111, 110, 101, 109, 112, 116, 105, 101, 100] /- onemptied -/,
  [111, 110, 101, 110, 100] /- onend -/,
  [111, 110, 101, 110, 100, 101, 100] /- onended -/,
  [111, 110, 101, 114, 114, 111, 114] /- onerror -/,
  [111, 110, 102, 111, 99, 117, 115] /- onfocus -/,
  [111, 110, 102, 111, 114, 109, 100, 97, 116, 97] /- onformdata -/,
  [111, 110, 104, 97, 115, 104, 99, 104, 97, 110, 103, 101] /- onhashchange -/,
  [111, 110, 105, 110, 112, 117, 116] /- oninput -/,
  [111, 110, 105, 110, 118, 97, 108, 105, 100] /- oninvalid -/,
  [111, 110, 107, 101, 121, 100, 111, 119, 110] /- onkeydown -/,
  [111, 110, 107, 101, 121, 112, 114, 101, 115, 115] /- onkeypress -/,
  [111, 110, 107, 101, 121, 117, 112] /- onkeyup -/,
  [111, 110, 108, 97, 110, 103, 117, 97, 103, 101, 99, 104, 97, 110, 103, 101] /- onlanguagechange -/,
  [111, 110, 108, 111, 97, 100] /- onload -/,
  [111, 110, 108, 111, 97, 100, 101, 100, 100, 97, 116, 97] /- onloadeddata -/,
  [111, 110, 108, 111, 97, 100, 101, 100, 109, 101, 116, 97, 100, 97, 116, 97] /- onloadedmetadata -/,
  [111, 110, 108, 111, 97, 100, 115, 116, 97, 114, 116] /- onloadstart -/,
  [111, 110, 109, 101, 115, 115, 97, 103, 101] /- onmessage -/,
  [111, 110, 109, 101, 115, 115, 97, 103, 101, 101, 114, 114, 111, 114] /- onmessageerror -/,
  [111, 110, 109, 111, 117, 115, 101, 100, 111, 119, 110] /- onmousedown -/,
  [111, 110, 109, 111, 117, 115, 101, 101, 110, 116, 101, 114] /- onmouseenter -/,
  [111, 110, 109, 111, 117, 115, 101, 108, 101, 97, 118, 101] /- onmouseleave -/,
  [111, 110, 109, 111, 117, 115, 101, 109, 111, 118, 101] /- onmousemove -/,
  [111, 110, 109, 111, 117, 115, 101, 111, 117, 116] /- onmouseout -/,
  [111, 110, 109, 111, 117, 115, 101, 111, 118, 101, 114] /- onmouseover -/,
  [111, 110, 109, 111, 117, 115, 101, 117, 112] /- onmouseup -/,
  [111, 110, 111, 102, 102, 108, 105, 110, 101] /- onoffline -/,
  [111, 110, 111, 110, 108, 105, 110, 101] /- ononline -/,
  [111, 110, 112, 97, 103, 101, 104, 105, 100, 101] /- onpagehide -/,
  [111, 110, 112, 97, 103, 101, 115, 104, 111, 119] /- onpageshow -/,
  [111, 110, 112, 97, 115, 116, 101] /- onpaste -/,
  [111, 110, 112, 97, 117, 115, 101] /- onpause -/,
  [111, 110, 112, 108, 97, 121] /- onplay -/,
  [111, 110, 112, 108, 97, 121, 105, 110, 103] /- onplaying -/,
  [111, 110, 112, 111, 112, 115, 116, 97, 116, 101] /- onpopstate -/,
  [111, 110, 112, 114, 111, 103, 114, 101, 115, 115] /- onprogress -/,
  [111, 110, 114, 97, 116, 101, 99, 104, 97, 110, 103, 101] /- onratechange -/,
  [111, 110, 114, 101, 106, 101, 99, 116, 105, 111, 110, 104, 97, 110, 100, 108, 101, 100] /- onrejectionhandled -/,
  [111, 110, 114, 101, 112, 101, 97, 116] /- onrepeat -/,
  [111, 110, 114, 101, 115, 101, 116] /- onreset -/,
  [111, 110, 114, 101, 115, 105, 122, 101] /- onresize -/,
  [111, 110, 115, 99, 114, 111, 108, 108] /- onscroll -/,
  [111, 110, 115, 101, 99, 117, 114, 105, 116, 121, 112, 111, 108, 105, 99, 121, 118, 105, 111, 108, 97, 116, 105, 111, 110] /- onsecuritypolicyviolation -/,
  [111, 110, 115, 101, 101, 107, 101, 100] /- onseeked -/,
  [111, 110, 115, 101, 101, 107, 105, 110, 103] /- onseeking -/,
  [111, 110, 115, 101, 108, 101, 99, 116] /- onselect -/,
  [111, 110, 115, 104, 111, 119] /- onshow -/,
  [111, 110, 115, 108, 111, 116, 99, 104, 97, 110, 103, 101] /- onslotchange -/,
  [111, 110, 115, 116, 97, 108, 108, 101, 100] /- onstalled -/,
  [111, 110, 115, 116, 111, 114, 97, 103, 101] /- onstorage -/,
  [111, 110, 115, 117, 98, 109, 105, 116] /- onsubmit -/,
  [111, 110, 115, 117, 115, 112, 101, 110, 100] /- onsuspend -/,
  [111, 110, 116, 105, 109, 101, 117, 112, 100, 97, 116, 101] /- ontimeupdate -/,
  [111, 110, 116, 111, 103, 103, 108, 101] /- ontoggle -/,
  [111, 110, 117, 110, 104, 97, 110, 100, 108, 101, 100, 114, 101, 106, 101, 99, 116, 105, 111, 110] /- onunhandledrejection -/,
  [111, 110, 117, 110, 108, 111, 97, 100] /- onunload -/,
  [111, 110, 118, 111, 108, 117, 109, 101, 99, 104, 97, 110, 103, 101] /- onvolumechange -/,
  [111, 110, 119, 97, 105, 116, 105, 110, 103] /- onwaiting -/,
  [111, 110, 119, 104, 101, 101, 108] /- onwheel -/,
  [111, 112, 97, 99, 105, 116, 121] /- opacity -/,
  [111, 112, 101, 110] /- open -/,
  [111, 112, 101, 114, 97, 116, 111, 114] /- operator -/,
  [111, 112, 116, 105, 109, 117, 109] /- optimum -/,
  [111, 114, 100, 101, 114] /- order -/,
  [111, 114, 105, 101, 110, 116] /- orient -/,
  [111, 114, 105, 103, 105, 110] /- origin -/,
  [111, 116, 104, 101, 114] /- other -/,
  [111, 118, 101, 114, 102, 108, 111, 119] /- overflow -/,
  [112, 97, 105, 110, 116, 45, 111, 114, 100, 101, 114] /- paint-order -/,
  [112, 97, 116, 104] /- path -/,
  [112, 97, 116, 104, 76, 101, 110, 103, 116, 104] /- pathLength -/,
  [112, 97, 116, 104, 108, 101, 110, 103, 116, 104] /- pathlength -/,
  [112, 97, 116, 116, 101, 114, 110] /- pattern -/,
  [112, 97, 116, 116, 101, 114, 110, 67, 111, 110, 116, 101, 110, 116, 85, 110, 105, 116, 115] /- patternContentUnits -/,
  [112, 97, 116, 116, 101, 114, 110, 84, 114, 97, 110, 115, 102, 111, 114, 109] /- patternTransform -/,
  [112, 97, 116, 116, 101, 114, 110, 85, 110, 105, 116, 115] /- patternUnits -/,
  [112, 97, 116, 116, 101, 114, 110, 99, 111, 110, 116, 101, 110, 116, 117, 110, 105, 116, 115] /- patterncontentunits -/,
  [112, 97, 116, 116, 101, 114, 110, 116, 114, 97, 110, 115, 102, 111, 114, 109] /- patterntransform -/,
  [112, 97, 116, 116, 101, 114, 110, 117, 110, 105, 116, 115] /- patternunits -/,
  [112, 105, 110, 103] /- ping -/,
  [112, 108, 97, 99, 101, 104, 111, 108, 100, 101, 114] /- placeholder -/,
  [112, 108, 97, 121, 98, 97, 99, 107, 111, 114, 100, 101, 114] /- playbackorder -/,
  [112, 108, 97, 121, 115, 105, 110, 108, 105, 110, 101] /- playsinline -/,
  [112, 111, 105, 110, 116, 101, 114, 45, 101, 118, 101, 110, 116, 115] /- pointer-events -/,
  [112, 111, 105, 110, 116, 115] /- points -/,
  [112, 111, 105, 110, 116, 115, 65, 116, 88] /- pointsAtX -/,
  [112, 111, 105, 110, 116, 115, 65, 116, 89] /- pointsAtY -/,
  [112, 111, 105, 110, 116, 115, 65, 116, 90] /- pointsAtZ -/,
  [112, 111, 105, 110, 116, 115, 97, 116, 120] /- pointsatx -/,
  [112, 111, 105, 110, 116, 115, 97, 116, 121] /- pointsaty -/,
  [112, 111, 105, 110, 116, 115, 97, 116, 122] /- pointsatz -/,
  [112, 111, 115, 105, 116, 105, 111, 110] /- position -/,
  [112, 111, 115, 116, 101, 114] /- poster -/,
  [112, 114, 101, 108, 111, 97, 100] /- preload -/,
  [112, 114, 101, 115, 101, 114, 118, 101, 65, 108, 112, 104, 97] /- preserveAlpha -/,
  [112, 114, 101, 115, 101, 114, 118, 101, 65, 115, 112, 101, 99, 116, 82, 97, 116, 105, 111] /- preserveAspectRatio -/,
  [112, 114, 101, 115, 101, 114, 118, 101, 97, 108, 112, 104, 97] /- preservealpha -/,
  [112, 114, 101, 115, 101, 114, 118, 101, 97, 115, 112, 101, 99, 116, 114, 97, 116, 105, 111] /- preserveaspectratio -/,
  [112, 114, 105, 109, 105, 116, 105, 118, 101, 85, 110, 105, 116, 115] /- primitiveUnits -/,
  [112, 114, 105, 109, 105, 116, 105, 118, 101, 117, 110, 105, 116, 115] /- primitiveunits -/,
  [114] /- r -/,
  [114, 97, 100, 105, 117, 115] /- radius -/,
  [114, 101, 97, 100, 111, 110, 108, 121] /- readonly -/,
  [114, 101, 102, 88] /- refX -/,
  [114, 101, 102, 89] /- refY -/,
  [114, 101, 102, 101, 114, 114, 101, 114, 112, 111, 108, 105, 99, 121] /- referrerpolicy -/,
  [114, 101, 102, 120] /- refx -/,
  [114, 101, 102, 121] /- refy -/,
  [114, 101, 108] /- rel -/,
  [114, 101, 112, 101, 97, 116, 67, 111, 117, 110, 116] /- repeatCount -/,
  [114, 101, 112, 101, 97, 116, 68, 117, 114] /- repeatDur -/,
  [114, 101, 112, 101, 97, 116, 99, 111, 117, 110, 116] /- repeatcount -/,
  [114, 101, 112, 101, 97, 116, 100, 117, 114] /- repeatdur -/,
  [114, 101, 113, 117, 105, 114, 101, 100] /- required -/,
  [114, 101, 113, 117, 105, 114, 101, 100, 69, 120, 116, 101, 110, 115, 105, 111, 110, 115] /- requiredExtensions -/,
  [114, 101, 113, 117, 105, 114, 101, 100, 70, 101, 97, 116, 117, 114, 101, 115] /- requiredFeatures -/,
  [114, 101, 113, 117, 105, 114, 101, 100, 101, 120, 116, 101, 110, 115, 105, 111, 110, 115] /- requiredextensions -/,
  [114, 101, 113, 117, 105, 114, 101, 100, 102, 101, 97, 116, 117, 114, 101, 115] /- requiredfeatures -/,
  [114, 101, 115, 116, 97, 114, 116] /- restart -/,
  [114, 101, 115, 117, 108, 116] /- result -/,
  [114, 101, 118, 101, 114, 115, 101, 100] /- reversed -/,
  [114, 105, 103, 104, 116, 111, 118, 101, 114, 104, 97, 110, 103] /- rightoverhang -/,
  [114, 111, 108, 101] /- role -/,
  [114, 111, 116, 97, 116, 101] /- rotate -/,
  [114, 111, 119, 97, 108, 105, 103, 110] /- rowalign -/,
  [114, 111, 119, 108, 105, 110, 101, 115] /- rowlines -/,
  [114, 111, 119, 115] /- rows -/,
  [114, 111, 119, 115, 112, 97, 99, 105, 110, 103] /- rowspacing -/,
  [114, 111, 119, 115, 112, 97, 110] /- rowspan -/,
  [114, 113, 117, 111, 116, 101] /- rquote -/,
  [114, 115, 112, 97, 99, 101] /- rspace -/,
  [115, 97, 110, 100, 98, 111, 120] /- sandbox -/,
  [115, 99, 97, 108, 101] /- scale -/,
  [115, 99, 104, 101, 109, 97, 76, 111, 99, 97, 116, 105, 111, 110] /- schemaLocation -/,
  [115, 99, 104, 101, 109, 97, 108, 111, 99, 97, 116, 105, 111, 110] /- schemalocation -/,
  [115, 99, 111, 112, 101] /- scope -/,
  [115, 99, 114, 105, 112, 116, 108, 101, 118, 101, 108] /- scriptlevel -/,
  [115, 99, 114, 105, 112, 116, 109, 105, 110, 115, 105, 122, 101] /- scriptminsize -/,
  [115, 99, 114, 105, 112, 116, 115, 105, 122, 101] /- scriptsize -/,
  [115, 99, 114, 105, 112, 116, 115, 105, 122, 101, 109, 117, 108, 116, 105, 112, 108, 105, 101, 114] /- scriptsizemultiplier -/,
  [115, 101, 101, 100] /- seed -/,
  [115, 101, 108, 101, 99, 116, 101, 100] /- selected -/,
  [115, 101, 108, 101, 99, 116, 105, 111, 110] /- selection -/,
  [115, 101, 112, 97, 114, 97, 116, 111, 114] /- separator -/,
  [115, 101, 112, 97, 114, 97, 116, 111, 114, 115] /- separators -/,
  [115, 104, 97, 112, 101] /- shape -/,
  [115, 104, 97, 112, 101, 45, 114, 101, 110, 100, 101, 114, 105, 110, 103] /- shape-rendering -/,
  [115, 104, 105, 102, 116] /- shift -/,
  [115, 104, 111, 119] /- show -/,
  [115, 105, 100, 101] /- side -/,
  [115, 105, 122, 101] /- size -/,
  [115, 105, 122, 101, 115] /- sizes -/,
  [115, 108, 111, 112, 101] /- slope -/,
  [115, 108, 111, 116] /- slot -/,
  [115, 112, 97, 99, 101] /- space -/,
  [115, 112, 97, 99, 105, 110, 103] /- spacing -/,
  [115, 112, 97, 110] /- span -/,
  [115, 112, 101, 99, 117, 108, 97, 114, 67, 111, 110, 115, 116, 97, 110, 116] /- specularConstant -/,
  [115, 112, 101, 99, 117, 108, 97, 114, 69, 120, 112, 111, 110, 101, 110, 116] /- specularExponent -/,
  [115, 112, 101, 99, 117, 108, 97, 114, 99, 111, 110, 115, 116, 97, 110, 116] /- specularconstant -/,
  [115, 112, 101, 99, 117, 108, 97, 114, 101, 120, 112, 111, 110, 101, 110, 116] /- specularexponent -/,
  [115, 112, 101, 108, 108, 99, 104, 101, 99, 107] /- spellcheck -/,
  [115, 112, 114, 101, 97, 100, 77, 101, 116, 104, 111, 100] /- spreadMethod -/,
  [115, 112, 114, 101, 97, 100, 109, 101, 116, 104, 111, 100] /- spreadmethod -/,
  [115, 114, 99] /- src -/,
  [115, 114, 99, 100, 111, 99] /- srcdoc -/,
  [115, 114, 99, 108, 97, 110, 103] /- srclang -/,
  [115, 114, 99, 115, 101, 116] /- srcset -/,
  [115, 116, 97, 99, 107, 97, 108, 105, 103, 110] /- stackalign -/,
  [115, 116, 97, 114, 116] /- start -/,
  [115, 116, 97, 114, 116, 79, 102, 102, 115, 101, 116] /- startOffset -/,
  [115, 116, 97, 114, 116, 111, 102, 102, 115, 101, 116] /- startoffset -/,
  [115, 116, 100, 68, 101, 118, 105, 97, 116, 105, 111, 110] /- stdDeviation -/,
  [115, 116, 100, 100, 101, 118, 105, 97, 116, 105, 111, 110] /- stddeviation -/,
  [115, 116, 101, 112] /- step -/,
  [115, 116, 105, 116, 99, 104, 84, 105, 108, 101, 115] /- stitchTiles -/,
  [115, 116, 105, 116, 99, 104, 116, 105, 108, 101, 115] /- stitchtiles -/,
  [115, 116, 111, 112, 45, 99, 111, 108, 111, 114] /- stop-color -/,
  [115, 116, 111, 112, 45, 111, 112, 97, 99, 105, 116, 121] /- stop-opacity -/,
  [115, 116, 114, 101, 116, 99, 104, 121] /- stretchy -/,
  [115, 116, 114, 111, 107, 101] /- stroke -/,
  [115, 116, 114, 111, 107, 101, 45, 100, 97, 115, 104, 97, 114, 114, 97, 121] /- stroke-dasharray -/,
  [115, 116, 114, 111, 107, 101, 45, 100, 97, 115, 104, 111, 102, 102, 115, 101, 116] /- stroke-dashoffset -/,
  [115, 116, 114, 111, 107, 101, 45, 108, 105, 110, 101, 99, 97, 112] /- stroke-linecap -/,
  [115, 116, 114, 111, 107, 101, 45, 108, 105, 110, 101, 106, 111, 105, 110] /- stroke-linejoin -/,
  [115, 116, 114, 111, 107, 101, 45, 109, 105, 116, 101, 114, 108, 105, 109, 105, 116] /- stroke-miterlimit -/,
  [115, 116, 114, 111, 107, 101, 45, 111, 112, 97, 99, 105, 116, 121] /- stroke-opacity -/,
  [115, 116, 114, 111, 107, 101, 45, 119, 105, 100, 116, 104] /- stroke-width -/,
  [115, 116, 121, 108, 101] /- style -/,
  [115, 117, 98, 115, 99, 114, 105, 112, 116, 115, 104, 105, 102, 116] /- subscriptshift -/,
  [115, 117, 112, 101, 114, 115, 99, 114, 105, 112, 116, 115, 104, 105, 102, 116] /- superscriptshift -/,
  [115, 117, 114, 102, 97, 99, 101, 83, 99, 97, 108, 101] /- surfaceScale -/,
  [115, 117, 114, 102, 97, 99, 101, 115, 99, 97, 108, 101] /- surfacescale -/,
  [115, 121, 109, 109, 101, 116, 114, 105, 99] /- symmetric -/,
  [115, 121, 115, 116, 101, 109, 76, 97, 110, 103, 117, 97, 103, 101] /- systemLanguage -/,
  [115, 121, 115, 116, 101, 109, 108, 97, 110, 103, 117, 97, 103, 101] /- systemlanguage -/,
  [116, 97, 98, 105, 110, 100, 101, 120] /- tabindex -/,
  [116, 97, 98, 108, 101, 86, 97, 108, 117, 101, 115] /- tableValues -/,
  [116, 97, 98, 108, 101, 118, 97, 108, 117, 101, 115] /- tablevalues -/,
  [116, 97, 114, 103, 101, 116] /- target -/,
  [116, 97, 114, 103, 101, 116, 88] /- targetX -/,
  [116, 97, 114, 103, 101, 116, 89] /- targetY -/,
  [116, 97, 114, 103, 101, 116, 120] /- targetx -/,
  [116, 97, 114, 103, 101, 116, 121] /- targety -/,
  [116, 101, 120, 116, 45, 97, 110, 99, 104, 111, 114] /- text-anchor -/,
  [116, 101, 120, 116, 45, 100, 101, 99, 111, 114, 97, 116, 105, 111, 110] /- text-decoration -/,
  [116, 101, 120, 116, 45, 114, 101, 110, 100, 101, 114, 105, 110, 103] /- text-rendering -/,
  [116, 101, 120, 116, 76, 101, 110, 103, 116, 104] /- textLength -/,
  [116, 101, 120, 116, 108, 101, 110, 103, 116, 104] /- textlength -/,
  [116, 104, 105, 99, 107, 109, 97, 116, 104, 115, 112, 97, 99, 101] /- thickmathspace -/,
  [116, 104, 105, 110, 109, 97, 116, 104, 115, 112, 97, 99, 101] /- thinmathspace -/,
  [116, 105, 109, 101, 108, 105, 110, 101, 98, 101, 103, 105, 110] /- timelinebegin -/,
  [116, 105, 116, 108, 101] /- title -/,
  [116, 111] /- to -/,
  [116, 114, 97, 110, 115, 102, 111, 114, 109] /- transform -/,
  [116, 114, 97, 110, 115, 102, 111, 114, 109, 45, 111, 114, 105, 103, 105, 110] /- transform-origin -/,
  [116, 114, 97, 110, 115, 108, 97, 116, 101] /- translate -/,
  [116, 121, 112, 101] /- type -/,
  [117, 110, 105, 99, 111, 100, 101, 45, 98, 105, 100, 105] /- unicode-bidi -/,
  [117, 115, 101, 109, 97, 112] /- usemap -/,
  [118, 97, 108, 105, 103, 110] /- valign -/,
  [118, 97, 108, 117, 101] /- value -/,
  [118, 97, 108, 117, 101, 115] /- values -/,
  [118, 101, 99, 116, 111, 114, 45, 101, 102, 102, 101, 99, 116] /- vector-effect -/,
  [118, 101, 114, 121, 116, 104, 105, 99, 107, 109, 97, 116, 104, 115, 112, 97, 99, 101] /- verythickmathspace -/,
  [118, 101, 114, 121, 116, 104, 105, 110, 109, 97, 116, 104, 115, 112, 97, 99, 101] /- verythinmathspace -/,
  [118, 101, 114, 121, 118, 101, 114, 121, 116, 104, 105, 99, 107, 109, 97, 116, 104, 115, 112, 97, 99, 101] /- veryverythickmathspace -/,
  [118, 101, 114, 121, 118, 101, 114, 121, 116, 104, 105, 110, 109, 97, 116, 104, 115, 112, 97, 99, 101] /- veryverythinmathspace -/,
  [118, 105, 101, 119, 66, 111, 120] /- viewBox -/,
  [118, 105, 101, 119, 84, 97, 114, 103, 101, 116] /- viewTarget -/,
  [118, 105, 101, 119, 98, 111, 120] /- viewbox -/,
  [118, 105, 101, 119, 116, 97, 114, 103, 101, 116] /- viewtarget -/,
  [118, 105, 115, 105, 98, 105, 108, 105, 116, 121] /- visibility -/,
  [118, 111, 102, 102, 115, 101, 116] /- voffset -/,
  [119, 105, 100, 116, 104] /- width -/,
  [119, 111, 114, 100, 45, 115, 112, 97, 99, 105, 110, 103] /- word-spacing -/,
  [119, 114, 97, 112] /- wrap -/,
  [119, 114, 105, 116, 105, 110, 103, 45, 109, 111, 100, 101] /- writing-mode -/,
  [120] /- x -/,
  [120, 49] /- x1 -/,
  [120, 50] /- x2 -/,
  [120, 67, 104, 97, 110, 110, 101, 108, 83, 101, 108, 101, 99, 116, 111, 114] /- xChannelSelector -/,
  [120, 99, 104, 97, 110, 110, 101, 108, 115, 101, 108, 101, 99, 116, 111, 114] /- xchannelselector -/,
  [120, 108, 105, 110, 107] /- xlink -/,
  [120, 108, 105, 110, 107, 58, 97, 99, 116, 117, 97, 116, 101] /- xlink:actuate -/,
  [120, 108, 105, 110, 107, 58, 97, 114, 99, 114, 111, 108, 101] /- xlink:arcrole -/,
  [120, 108, 105, 110, 107, 58, 104, 114, 101, 102] /- xlink:href -/,
  [120, 108, 105, 110, 107, 58, 114, 111, 108, 101] /- xlink:role -/,
  [120, 108, 105, 110, 107, 58, 115, 104, 111, 119] /- xlink:show -/,
  [120, 108, 105, 110, 107, 58, 116, 105, 116, 108, 101] /- xlink:title -/,
  [120, 108, 105, 110, 107, 58, 116, 121, 112, 101] /- xlink:type -/,
  [120, 109, 108] /- xml -/,
  [120, 109, 108, 58, 108, 97, 110, 103] /- xml:lang -/,
  [120, 109, 108, 58, 115, 112, 97, 99, 101] /- xml:space -/,
  [120, 109, 108, 110, 115] /- xmlns -/,
  [120, 109, 108, 110, 115, 58, 120, 108, 105, 110, 107] /- xmlns:xlink -/,
  [120, 114, 101, 102] /- xref -/,
  [120, 115, 105, 58, 115, 99, 104, 101, 109, 97, 76, 111, 99, 97, 116, 105, 111, 110] /- xsi:schemaLocation -/,
  [120, 115, 105, 58, 115, 99, 104, 101, 109, 97, 108, 111, 99, 97, 116, 105, 111, 110] /- xsi:schemalocation -/,
  [121] /- y -/,
  [121, 49] /- y1 -/,
  [121, 50] /- y2 -/,
  [121, 67, 104, 97, 110, 110, 101, 108, 83, 101, 108, 101, 99, 116, 111, 114] /- yChannelSelector -/,
  [121, 99, 104, 97, 110, 110, 101, 108, 115, 101, 108, 101, 99, 116, 111, 114] /- ychannelselector -/,
  [122] /- z -/,
  [122, 111, 111, 109, 65, 110, 100, 80, 97, 110] /- zoomAndPan -/,
  [122, 111, 111, 109, 97, 110, 100, 112, 97, 110] /- zoomandpan -/
]

/-- `attribute_name` (atom_defs.hpp:448-1083): identifier and value. -/
def attrEnum : List (List Nat × Nat) := [
  ([65, 98, 98, 114], 1) /- Abbr -/,
  ([65, 99, 99, 101, 110, 116], 2) /- Accent -/,
  ([65, 99, 99, 101, 110, 116, 117, 110, 100, 101, 114], 3) /- Accentunder -/,
  ([65, 99, 99, 101, 112, 116], 4) /- Accept -/,
  ([65, 99, 99, 101, 112, 116, 95, 99, 104, 97, 114, 115, 101, 116], 5) /- Accept_charset -/,
  ([65, 99, 99, 101, 115, 115, 107, 101, 121], 6) /- Accesskey -/,
  ([65, 99, 99, 117, 109, 117, 108, 97, 116, 101], 7) /- Accumulate -/,
  ([65, 99, 116, 105, 111, 110], 8) /- Action -/,
  ([65, 99, 116, 105, 111, 110, 116, 121, 112, 101], 9) /- Actiontype -/,
  ([65, 99, 116, 117, 97, 116, 101], 10) /- Actuate -/,
  ([65, 100, 100, 105, 116, 105, 118, 101], 11) /- Additive -/,
  ([65, 108, 105, 103, 110], 12) /- Align -/,
  ([65, 108, 105, 103, 110, 109, 101, 110, 116, 95, 98, 97, 115, 101, 108, 105, 110, 101], 13) /- Alignment_baseline -/,
  ([65, 108, 105, 103, 110, 109, 101, 110, 116, 115, 99, 111, 112, 101], 14) /- Alignmentscope -/,
  ([65, 108, 108, 111, 119], 15) /- Allow -/,
  ([65, 108, 108, 111, 119, 102, 117, 108, 108, 115, 99, 114, 101, 101, 110], 16) /- Allowfullscreen -/,
  ([65, 108, 108, 111, 119, 112, 97, 121, 109, 101, 110, 116, 114, 101, 113, 117, 101, 115, 116], 17) /- Allowpaymentrequest -/,
  ([65, 108, 116], 18) /- Alt -/,
  ([65, 108, 116, 105, 109, 103], 19) /- Altimg -/,
  ([65, 108, 116, 105, 109, 103, 95, 104, 101, 105, 103, 104, 116], 20) /- Altimg_height -/,
  ([65, 108, 116, 105, 109, 103, 95, 118, 97, 108, 105, 103, 110], 21) /- Altimg_valign -/,
  ([65, 108, 116, 105, 109, 103, 95, 119, 105, 100, 116, 104], 22) /- Altimg_width -/,
  ([65, 108, 116, 116, 101, 120, 116], 23) /- Alttext -/,
  ([65, 109, 112, 108, 105, 116, 117, 100, 101], 24) /- Amplitude -/,
  ([65, 110, 110, 111, 116, 97, 116, 105, 111, 110, 95, 120, 109, 108], 25) /- Annotation_xml -/,
  ([65, 114, 99, 114, 111, 108, 101], 26) /- Arcrole -/,
  ([65, 114, 105, 97, 95, 97, 99, 116, 105, 118, 101, 100, 101, 115, 99, 101, 110, 100, 97, 110, 116], 27) /- Aria_activedescendant -/,
  ([65, 114, 105, 97, 95, 97, 116, 111, 109, 105, 99], 28) /- Aria_atomic -/,
  ([65, 114, 105, 97, 95, 97, 117, 116, 111, 99, 111, 109, 112, 108, 101, 116, 101], 29) /- Aria_autocomplete -/,
  ([65, 114, 105, 97, 95, 98, 117, 115, 121], 30) /- Aria_busy -/,
  ([65, 114, 105, 97, 95, 99, 104, 101, 99, 107, 101, 100], 31) /- Aria_checked -/,
  ([65, 114, 105, 97, 95, 99, 111, 108, 99, 111, 117, 110, 116], 32) /- Aria_colcount -/,
  ([65, 114, 105, 97, 95, 99, 111, 108, 105, 110, 100, 101, 120], 33) /- Aria_colindex -/,
  ([65, 114, 105, 97, 95, 99, 111, 108, 115, 112, 97, 110], 34) /- Aria_colspan -/,
  ([65, 114, 105, 97, 95, 99, 111, 110, 116, 114, 111, 108, 115], 35) /- Aria_controls -/,
  ([65, 114, 105, 97, 95, 99, 117, 114, 114, 101, 110, 116], 36) /- Aria_current -/,
  ([65, 114, 105, 97, 95, 100, 101, 115, 99, 114, 105, 98, 101, 100, 98, 121], 37) /- Aria_describedby -/,
  ([65, 114, 105, 97, 95, 100, 101, 116, 97, 105, 108, 115], 38) /- Aria_details -/,
  ([65, 114, 105, 97, 95, 100, 105, 115, 97, 98, 108, 101, 100], 39) /- Aria_disabled -/,
  ([65, 114, 105, 97, 95, 100, 114, 111, 112, 101, 102, 102, 101, 99, 116], 40) /- Aria_dropeffect -/,
  ([65, 114, 105, 97, 95, 101, 114, 114, 111, 114, 109, 101, 115, 115, 97, 103, 101], 41) /- Aria_errormessage -/,
  ([65, 114, 105, 97, 95, 101, 120, 112, 97, 110, 100, 101, 100], 42) /- Aria_expanded -/,
  ([65, 114, 105, 97, 95, 102, 108, 111, 119, 116, 111], 43) /- Aria_flowto -/,
  ([65, 114, 105, 97, 95, 103, 114, 97, 98, 98, 101, 100], 44) /- Aria_grabbed -/,
  ([65, 114, 105, 97, 95, 104, 97, 115, 112, 111, 112, 117, 112], 45) /- Aria_haspopup -/,
  ([65, 114, 105, 97, 95, 104, 105, 100, 100, 101, 110], 46) /- Aria_hidden -/,
  ([65, 114, 105, 97, 95, 105, 110, 118, 97, 108, 105, 100], 47) /- Aria_invalid -/,
  ([65, 114, 105, 97, 95, 107, 101, 121, 115, 104, 111, 114, 116, 99, 117, 116, 115], 48) /- Aria_keyshortcuts -/,
  ([65, 114, 105, 97, 95, 108, 97, 98, 101, 108], 49) /- Aria_label -/,
  ([65, 114, 105, 97, 95, 108, 97, 98, 101, 108, 108, 101, 100, 98, 121], 50) /- Aria_labelledby -/,
  ([65, 114, 105, 97, 95, 108, 101, 118, 101, 108], 51) /- Aria_level -/,
  ([65, 114, 105, 97, 95, 108, 105, 118, 101], 52) /- Aria_live -/,
  ([65, 114, 105, 97, 95, 109, 111, 100, 97, 108], 53) /- Aria_modal -/,
  ([65, 114, 105, 97, 95, 109, 117, 108, 116, 105, 108, 105, 110, 101], 54) /- Aria_multiline -/,
  ([65, 114, 105, 97, 95, 109, 117, 108, 116, 105, 115, 101, 108, 101, 99, 116, 97, 98, 108, 101], 55) /- Aria_multiselectable -/,
  ([65, 114, 105, 97, 95, 111, 114, 105, 101, 110, 116, 97, 116, 105, 111, 110], 56) /- Aria_orientation -/,
  ([65, 114, 105, 97, 95, 111, 119, 110, 115], 57) /- Aria_owns -/,
  ([65, 114, 105, 97, 95, 112, 108, 97, 99, 101, 104, 111, 108, 100, 101, 114], 58) /- Aria_placeholder -/,
  ([65, 114, 105, 97, 95, 112, 111, 115, 105, 110, 115, 101, 116], 59) /- Aria_posinset -/,
  ([65, 114, 105, 97, 95, 112, 114, 101, 115, 115, 101, 100], 60) /- Aria_pressed -/,
  ([65, 114, 105, 97, 95, 114, 101, 97, 100, 111, 110, 108, 121], 61) /- Aria_readonly -/,
  ([65, 114, 105, 97, 95, 114, 101, 108, 101, 118, 97, 110, 116], 62) /- Aria_relevant -/,
  ([65, 114, 105, 97, 95, 114, 101, 113, 117, 105, 114, 101, 100], 63) /- Aria_required -/,
  ([65, 114, 105, 97, 95, 114, 111, 108, 101, 100, 101, 115, 99, 114, 105, 112, 116, 105, 111, 110], 64) /- Aria_roledescription -/,
  ([65, 114, 105, 97, 95, 114, 111, 119, 99, 111, 117, 110, 116], 65) /- Aria_rowcount -/,
  ([65, 114, 105, 97, 95, 114, 111, 119, 105, 110, 100, 101, 120], 66) /- Aria_rowindex -/,
  ([65, 114, 105, 97, 95, 114, 111, 119, 115, 112, 97, 110], 67) /- Aria_rowspan -/,
  ([65, 114, 105, 97, 95, 115, 101, 108, 101, 99, 116, 101, 100], 68) /- Aria_selected -/,
  ([65, 114, 105, 97, 95, 115, 101, 116, 115, 105, 122, 101], 69) /- Aria_setsize -/,
  ([65, 114, 105, 97, 95, 115, 111, 114, 116], 70) /- Aria_sort -/,
  ([65, 114, 105, 97, 95, 118, 97, 108, 117, 101, 109, 97, 120], 71) /- Aria_valuemax -/,
  ([65, 114, 105, 97, 95, 118, 97, 108, 117, 101, 109, 105, 110], 72) /- Aria_valuemin -/,
  ([65, 114, 105, 97, 95, 118, 97, 108, 117, 101, 110, 111, 119], 73) /- Aria_valuenow -/,
  ([65, 114, 105, 97, 95, 118, 97, 108, 117, 101, 116, 101, 120, 116], 74) /- Aria_valuetext -/,
  ([65, 115], 75) /- As -/,
  ([65, 115, 121, 110, 99], 76) /- Async -/,
  ([65, 116, 116, 114, 105, 98, 117, 116, 101, 78, 97, 109, 101], 77) /- AttributeName -/,
  ([65, 116, 116, 114, 105, 98, 117, 116, 101, 84, 121, 112, 101], 78) /- AttributeType -/,
  ([65, 116, 116, 114, 105, 98, 117, 116, 101, 110, 97, 109, 101], 79) /- Attributename -/,
  ([65, 116, 116, 114, 105, 98, 117, 116, 101, 116, 121, 112, 101], 80) /- Attributetype -/,
  ([65, 117, 116, 111, 99, 97, 112, 105, 116, 97, 108, 105, 122, 101], 81) /- Autocapitalize -/,
  ([65, 117, 116, 111, 99, 111, 109, 112, 108, 101, 116, 101], 82) /- Autocomplete -/,
  ([65, 117, 116, 111, 102, 111, 99, 117, 115], 83) /- Autofocus -/,
  ([65, 117, 116, 111, 112, 108, 97, 121], 84) /- Autoplay -/,
  ([65, 122, 105, 109, 117, 116, 104], 85) /- Azimuth -/,
  ([66, 97, 99, 107, 103, 114, 111, 117, 110, 100], 86) /- Background -/,
  ([66, 97, 115, 101], 87) /- Base -/,
  ([66, 97, 115, 101, 70, 114, 101, 113, 117, 101, 110, 99, 121], 88) /- BaseFrequency -/,
  ([66, 97, 115, 101, 80, 114, 111, 102, 105, 108, 101], 89) /- BaseProfile -/,
  ([66, 97, 115, 101, 102, 114, 101, 113, 117, 101, 110, 99, 121], 90) /- Basefrequency -/,
  ([66, 97, 115, 101, 108, 105, 110, 101], 91) /- Baseline -/,
  ([66, 97, 115, 101, 108, 105, 110, 101, 95, 115, 104, 105, 102, 116], 92) /- Baseline_shift -/,
  ([66, 97, 115, 101, 112, 114, 111, 102, 105, 108, 101], 93) /- Baseprofile -/,
  ([66, 101, 103, 105, 110], 94) /- Begin -/,
  ([66, 101, 118, 101, 108, 108, 101, 100], 95) /- Bevelled -/,
  ([66, 105, 97, 115], 96) /- Bias -/,
  ([66, 121], 97) /- By -/,
  ([67, 97, 108, 99, 77, 111, 100, 101], 98) /- CalcMode -/,
  ([67, 97, 108, 99, 109, 111, 100, 101], 99) /- Calcmode -/,
  ([67, 100], 100) /- Cd -/,
  ([67, 100, 103, 114, 111, 117, 112], 101) /- Cdgroup -/,
  ([67, 104, 97, 114, 97, 108, 105, 103, 110], 102) /- Charalign -/,
  ([67, 104, 97, 114, 115, 101, 116], 103) /- Charset -/,
  ([67, 104, 97, 114, 115, 112, 97, 99, 105, 110, 103], 104) /- Charspacing -/,
  ([67, 104, 101, 99, 107, 101, 100], 105) /- Checked -/,
  ([67, 105, 116, 101], 106) /- Cite -/,
  ([67, 108, 97, 115, 115], 107) /- Class -/,
  ([67, 108, 105, 112], 108) /- Clip -/,
  ([67, 108, 105, 112, 95, 112, 97, 116, 104], 109) /- Clip_path -/,
  ([67, 108, 105, 112, 95, 114, 117, 108, 101], 110) /- Clip_rule -/,
  ([67, 108, 105, 112, 80, 97, 116, 104, 85, 110, 105, 116, 115], 111) /- ClipPathUnits -/,
  ([67, 108, 105, 112, 112, 97, 116, 104, 117, 110, 105, 116, 115], 112) /- Clippathunits -/,
  ([67, 108, 111, 115, 101], 113) /- Close -/,
  ([67, 108, 111, 115, 117, 114, 101], 114) /- Closure -/,
  ([67, 111, 108, 111, 114], 115) /- Color -/,
  ([67, 111, 108, 111, 114, 95, 105, 110, 116, 101, 114, 112, 111, 108, 97, 116, 105, 111, 110], 116) /- Color_interpolation -/,
  ([67, 111, 108, 111, 114, 95, 105, 110, 116, 101, 114, 112, 111, 108, 97, 116, 105, 111, 110, 95, 102, 105, 108, 116, 101, 114, 115], 117) /- Color_interpolation_filters -/,
  ([67, 111, 108, 115], 118) /- Cols -/,
  ([67, 111, 108, 115, 112, 97, 110], 119) /- Colspan -/,
  ([67, 111, 108, 117, 109, 110, 97, 108, 105, 103, 110], 120) /- Columnalign -/,
  ([67, 111, 108, 117, 109, 110, 97, 108, 105, 103, 110, 109, 101, 110, 116], 121) /- Columnalignment -/,
  ([67, 111, 108, 117, 109, 110, 108, 105, 110, 101, 115], 122) /- Columnlines -/,
  ([67, 111, 108, 117, 109, 110, 115, 112, 97, 99, 105, 110, 103], 123) /- Columnspacing -/,
  ([67, 111, 108, 117, 109, 110, 115, 112, 97, 110], 124) /- Columnspan -/,
  ([67, 111, 108, 117, 109, 110, 119, 105, 100, 116, 104], 125) /- Columnwidth -/,
  ([67, 111, 110, 116, 101, 110, 116], 126) /- Content -/,
  ([67, 111, 110, 116, 101, 110, 116, 101, 100, 105, 116, 97, 98, 108, 101], 127) /- Contenteditable -/,
  ([67, 111, 110, 116, 114, 111, 108, 115], 128) /- Controls -/,
  ([67, 111, 111, 114, 100, 115], 129) /- Coords -/,
  ([67, 114, 111, 115, 115, 111, 114, 105, 103, 105, 110], 130) /- Crossorigin -/,
  ([67, 114, 111, 115, 115, 111, 117, 116], 131) /- Crossout -/,
  ([67, 117, 114, 115, 111, 114], 132) /- Cursor -/,
  ([67, 120], 133) /- Cx -/,
  ([67, 121], 134) /- Cy -/,
  ([68, 97, 116, 97], 135) /- Data -/,
  ([68, 97, 116, 101, 116, 105, 109, 101], 136) /- Datetime -/,
  ([68, 101, 99, 105, 109, 97, 108, 112, 111, 105, 110, 116], 137) /- Decimalpoint -/,
  ([68, 101, 99, 111, 100, 105, 110, 103], 138) /- Decoding -/,
  ([68, 101, 102, 97, 117, 108, 116], 139) /- Default -/,
  ([68, 101, 102, 101, 114], 140) /- Defer -/,
  ([68, 101, 102, 105, 110, 105, 116, 105, 111, 110, 85, 82, 76], 141) /- DefinitionURL -/,
  ([68, 101, 102, 105, 110, 105, 116, 105, 111, 110, 117, 114, 108], 142) /- Definitionurl -/,
  ([68, 101, 110, 111, 109, 97, 108, 105, 103, 110], 143) /- Denomalign -/,
  ([68, 101, 112, 116, 104], 144) /- Depth -/,
  ([68, 105, 102, 102, 117, 115, 101, 67, 111, 110, 115, 116, 97, 110, 116], 145) /- DiffuseConstant -/,
  ([68, 105, 102, 102, 117, 115, 101, 99, 111, 110, 115, 116, 97, 110, 116], 146) /- Diffuseconstant -/,
  ([68, 105, 114], 147) /- Dir -/,
  ([68, 105, 114, 101, 99, 116, 105, 111, 110], 148) /- Direction -/,
  ([68, 105, 114, 110, 97, 109, 101], 149) /- Dirname -/,
  ([68, 105, 115, 97, 98, 108, 101, 100], 150) /- Disabled -/,
  ([68, 105, 115, 112, 108, 97, 121], 151) /- Display -/,
  ([68, 105, 115, 112, 108, 97, 121, 115, 116, 121, 108, 101], 152) /- Displaystyle -/,
  ([68, 105, 118, 105, 115, 111, 114], 153) /- Divisor -/,
  ([68, 111, 109, 105, 110, 97, 110, 116, 95, 98, 97, 115, 101, 108, 105, 110, 101], 154) /- Dominant_baseline -/,
  ([68, 111, 119, 110, 108, 111, 97, 100], 155) /- Download -/,
  ([68, 114, 97, 103, 103, 97, 98, 108, 101], 156) /- Draggable -/,
  ([68, 117, 114], 157) /- Dur -/,
  ([68, 120], 158) /- Dx -/,
  ([68, 121], 159) /- Dy -/,
  ([69, 100, 103, 101], 160) /- Edge -/,
  ([69, 100, 103, 101, 77, 111, 100, 101], 161) /- EdgeMode -/,
  ([69, 100, 103, 101, 109, 111, 100, 101], 162) /- Edgemode -/,
  ([69, 108, 101, 118, 97, 116, 105, 111, 110], 163) /- Elevation -/,
  ([69, 110, 99, 111, 100, 105, 110, 103], 164) /- Encoding -/,
  ([69, 110, 99, 116, 121, 112, 101], 165) /- Enctype -/,
  ([69, 110, 100], 166) /- End -/,
  ([69, 110, 116, 101, 114, 107, 101, 121, 104, 105, 110, 116], 167) /- Enterkeyhint -/,
  ([69, 113, 117, 97, 108, 99, 111, 108, 117, 109, 110, 115], 168) /- Equalcolumns -/,
  ([69, 113, 117, 97, 108, 114, 111, 119, 115], 169) /- Equalrows -/,
  ([69, 120, 112, 111, 110, 101, 110, 116], 170) /- Exponent -/,
  ([70, 101, 110, 99, 101], 171) /- Fence -/,
  ([70, 105, 108, 108], 172) /- Fill -/,
  ([70, 105, 108, 108, 95, 111, 112, 97, 99, 105, 116, 121], 173) /- Fill_opacity -/,
  ([70, 105, 108, 108, 95, 114, 117, 108, 101], 174) /- Fill_rule -/,
  ([70, 105, 108, 116, 101, 114], 175) /- Filter -/,
  ([70, 105, 108, 116, 101, 114, 85, 110, 105, 116, 115], 176) /- FilterUnits -/,
  ([70, 105, 108, 116, 101, 114, 117, 110, 105, 116, 115], 177) /- Filterunits -/,
  ([70, 108, 111, 111, 100, 95, 99, 111, 108, 111, 114], 178) /- Flood_color -/,
  ([70, 108, 111, 111, 100, 95, 111, 112, 97, 99, 105, 116, 121], 179) /- Flood_opacity -/,
  ([70, 111, 110, 116, 95, 102, 97, 109, 105, 108, 121], 180) /- Font_family -/,
  ([70, 111, 110, 116, 95, 115, 105, 122, 101], 181) /- Font_size -/,
  ([70, 111, 110, 116, 95, 115, 105, 122, 101, 95, 97, 100, 106, 117, 115, 116], 182) /- Font_size_adjust -/,
  ([70, 111, 110, 116, 95, 115, 116, 114, 101, 116, 99, 104], 183) /- Font_stretch -/,
  ([70, 111, 110, 116, 95, 115, 116, 121, 108, 101], 184) /- Font_style -/,
  ([70, 111, 110, 116, 95, 118, 97, 114, 105, 97, 110, 116], 185) /- Font_variant -/,
  ([70, 111, 110, 116, 95, 119, 101, 105, 103, 104, 116], 186) /- Font_weight -/,
  ([70, 111, 110, 116, 102, 97, 109, 105, 108, 121], 187) /- Fontfamily -/,
  ([70, 111, 110, 116, 115, 105, 122, 101], 188) /- Fontsize -/,
  ([70, 111, 110, 116, 115, 116, 121, 108, 101], 189) /- Fontstyle -/,
  ([70, 111, 110, 116, 119, 101, 105, 103, 104, 116], 190) /- Fontweight -/,
  ([70, 111, 114], 191) /- For -/,
  ([70, 111, 114, 109], 192) /- Form -/,
  ([70, 111, 114, 109, 97, 99, 116, 105, 111, 110], 193) /- Formaction -/,
  ([70, 111, 114, 109, 101, 110, 99, 116, 121, 112, 101], 194) /- Formenctype -/,
  ([70, 111, 114, 109, 109, 101, 116, 104, 111, 100], 195) /- Formmethod -/,
  ([70, 111, 114, 109, 110, 111, 118, 97, 108, 105, 100, 97, 116, 101], 196) /- Formnovalidate -/,
  ([70, 111, 114, 109, 116, 97, 114, 103, 101, 116], 197) /- Formtarget -/,
  ([70, 114], 198) /- Fr -/,
  ([70, 114, 97, 109, 101], 199) /- Frame -/,
  ([70, 114, 97, 109, 101, 115, 112, 97, 99, 105, 110, 103], 200) /- Framespacing -/,
  ([70, 114, 111, 109], 201) /- From -/,
  ([70, 120], 202) /- Fx -/,
  ([70, 121], 203) /- Fy -/,
  ([71, 108, 121, 112, 104, 95, 111, 114, 105, 101, 110, 116, 97, 116, 105, 111, 110, 95, 104, 111, 114, 105, 122, 111, 110, 116, 97, 108], 204) /- Glyph_orientation_horizontal -/,
  ([71, 108, 121, 112, 104, 95, 111, 114, 105, 101, 110, 116, 97, 116, 105, 111, 110, 95, 118, 101, 114, 116, 105, 99, 97, 108], 205) /- Glyph_orientation_vertical -/,
  ([71, 108, 121, 112, 104, 82, 101, 102], 206) /- GlyphRef -/,
  ([71, 108, 121, 112, 104, 114, 101, 102], 207) /- Glyphref -/,
  ([71, 114, 97, 100, 105, 101, 110, 116, 84, 114, 97, 110, 115, 102, 111, 114, 109], 208) /- GradientTransform -/,
  ([71, 114, 97, 100, 105, 101, 110, 116, 85, 110, 105, 116, 115], 209) /- GradientUnits -/,
  ([71, 114, 97, 100, 105, 101, 110, 116, 116, 114, 97, 110, 115, 102, 111, 114, 109], 210) /- Gradienttransform -/,
  ([71, 114, 97, 100, 105, 101, 110, 116, 117, 110, 105, 116, 115], 211) /- Gradientunits -/,
  ([71, 114, 111, 117, 112, 97, 108, 105, 103, 110], 212) /- Groupalign -/,
  ([72, 101, 97, 100, 101, 114, 115], 213) /- Headers -/,
  ([72, 101, 105, 103, 104, 116], 214) /- Height -/,
  ([72, 105, 100, 100, 101, 110], 215) /- Hidden -/,
  ([72, 105, 103, 104], 216) /- High -/,
  ([72, 114, 101, 102], 217) /- Href -/,
  ([72, 114, 101, 102, 108, 97, 110, 103], 218) /- Hreflang -/,
  ([72, 116, 116, 112, 95, 101, 113, 117, 105, 118], 219) /- Http_equiv -/,
  ([73, 100], 220) /- Id -/,
  ([73, 109, 97, 103, 101, 95, 114, 101, 110, 100, 101, 114, 105, 110, 103], 221) /- Image_rendering -/,
  ([73, 109, 97, 103, 101, 115, 105, 122, 101, 115], 222) /- Imagesizes -/,
  ([73, 109, 97, 103, 101, 115, 114, 99, 115, 101, 116], 223) /- Imagesrcset -/,
  ([73, 110], 224) /- In -/,
  ([73, 110, 50], 225) /- In2 -/,
  ([73, 110, 100, 101, 110, 116, 97, 108, 105, 103, 110], 226) /- Indentalign -/,
  ([73, 110, 100, 101, 110, 116, 97, 108, 105, 103, 110, 102, 105, 114, 115, 116], 227) /- Indentalignfirst -/,
  ([73, 110, 100, 101, 110, 116, 97, 108, 105, 103, 110, 108, 97, 115, 116], 228) /- Indentalignlast -/,
  ([73, 110, 100, 101, 110, 116, 115, 104, 105, 102, 116], 229) /- Indentshift -/,
  ([73, 110, 100, 101, 110, 116, 115, 104, 105, 102, 116, 102, 105, 114, 115, 116], 230) /- Indentshiftfirst -/,
  ([73, 110, 100, 101, 110, 116, 115, 104, 105, 102, 116, 108, 97, 115, 116], 231) /- Indentshiftlast -/,
  ([73, 110, 100, 101, 110, 116, 116, 97, 114, 103, 101, 116], 232) /- Indenttarget -/,
  ([73, 110, 100, 101, 120], 233) /- Index -/,
  ([73, 110, 102, 105, 120, 108, 105, 110, 101, 98, 114, 101, 97, 107, 115, 116, 121, 108, 101], 234) /- Infixlinebreakstyle -/,
  ([73, 110, 112, 117, 116, 109, 111, 100, 101], 235) /- Inputmode -/,
  ([73, 110, 116, 101, 103, 101, 114], 236) /- Integer -/,
  ([73, 110, 116, 101, 103, 114, 105, 116, 121], 237) /- Integrity -/,
  ([73, 110, 116, 101, 114, 99, 101, 112, 116], 238) /- Intercept -/,
  ([73, 115], 239) /- Is -/,
  ([73, 115, 109, 97, 112], 240) /- Ismap -/,
  ([73, 116, 101, 109, 105, 100], 241) /- Itemid -/,
  ([73, 116, 101, 109, 112, 114, 111, 112], 242) /- Itemprop -/,
  ([73, 116, 101, 109, 114, 101, 102], 243) /- Itemref -/,
  ([73, 116, 101, 109, 115, 99, 111, 112, 101], 244) /- Itemscope -/,
  ([73, 116, 101, 109, 116, 121, 112, 101], 245) /- Itemtype -/,
  ([75, 49], 246) /- K1 -/,
  ([75, 50], 247) /- K2 -/,
  ([75, 51], 248) /- K3 -/,
  ([75, 52], 249) /- K4 -/,
  ([75, 101, 114, 110, 101, 108, 77, 97, 116, 114, 105, 120], 250) /- KernelMatrix -/,
  ([75, 101, 114, 110, 101, 108, 85, 110, 105, 116, 76, 101, 110, 103, 116, 104], 251) /- KernelUnitLength -/,
  ([75, 101, 114, 110, 101, 108, 109, 97, 116, 114, 105, 120], 252) /- Kernelmatrix -/,
  ([75, 101, 114, 110, 101, 108, 117, 110, 105, 116, 108, 101, 110, 103, 116, 104], 253) /- Kernelunitlength -/,
  ([75, 101, 121, 80, 111, 105, 110, 116, 115], 254) /- KeyPoints -/,
  ([75, 101, 121, 83, 112, 108, 105, 110, 101, 115], 255) /- KeySplines -/,
  ([75, 101, 121, 84, 105, 109, 101, 115], 256) /- KeyTimes -/,
  ([75, 101, 121, 112, 111, 105, 110, 116, 115], 257) /- Keypoints -/,
  ([75, 101, 121, 115, 112, 108, 105, 110, 101, 115], 258) /- Keysplines -/,
  ([75, 101, 121, 116, 105, 109, 101, 115], 259) /- Keytimes -/,
  ([75, 105, 110, 100], 260) /- Kind -/,
  ([76, 97, 98, 101, 108], 261) /- Label -/,
  ([76, 97, 110, 103], 262) /- Lang -/,
  ([76, 97, 114, 103, 101, 111, 112], 263) /- Largeop -/,
  ([76, 101, 102, 116, 111, 118, 101, 114, 104, 97, 110, 103], 264) /- Leftoverhang -/,
  ([76, 101, 110, 103, 116, 104], 265) /- Length -/,
  ([76, 101, 110, 103, 116, 104, 65, 100, 106, 117, 115, 116], 266) /- LengthAdjust -/,
  ([76, 101, 110, 103, 116, 104, 97, 100, 106, 117, 115, 116], 267) /- Lengthadjust -/,
  ([76, 101, 116, 116, 101, 114, 95, 115, 112, 97, 99, 105, 110, 103], 268) /- Letter_spacing -/,
  ([76, 105, 103, 104, 116, 105, 110, 103, 95, 99, 111, 108, 111, 114], 269) /- Lighting_color -/,
  ([76, 105, 109, 105, 116, 105, 110, 103, 67, 111, 110, 101, 65, 110, 103, 108, 101], 270) /- LimitingConeAngle -/,
  ([76, 105, 109, 105, 116, 105, 110, 103, 99, 111, 110, 101, 97, 110, 103, 108, 101], 271) /- Limitingconeangle -/,
  ([76, 105, 110, 101, 98, 114, 101, 97, 107], 272) /- Linebreak -/,
  ([76, 105, 110, 101, 98, 114, 101, 97, 107, 109, 117, 108, 116, 99, 104, 97, 114], 273) /- Linebreakmultchar -/,
  ([76, 105, 110, 101, 98, 114, 101, 97, 107, 115, 116, 121, 108, 101], 274) /- Linebreakstyle -/,
  ([76, 105, 110, 101, 108, 101, 97, 100, 105, 110, 103], 275) /- Lineleading -/,
  ([76, 105, 110, 101, 116, 104, 105, 99, 107, 110, 101, 115, 115], 276) /- Linethickness -/,
  ([76, 105, 115, 116], 277) /- List -/,
  ([76, 111, 97, 100, 105, 110, 103], 278) /- Loading -/,
  ([76, 111, 99, 97, 116, 105, 111, 110], 279) /- Location -/,
  ([76, 111, 110, 103, 100, 105, 118, 115, 116, 121, 108, 101], 280) /- Longdivstyle -/,
  ([76, 111, 111, 112], 281) /- Loop -/,
  ([76, 111, 119], 282) /- Low -/,
  ([76, 113, 117, 111, 116, 101], 283) /- Lquote -/,
  ([76, 115, 112, 97, 99, 101], 284) /- Lspace -/,
  ([76, 116, 114], 285) /- Ltr -/,
  ([77, 97, 99, 114, 111, 115], 286) /- Macros -/,
  ([77, 97, 110, 105, 102, 101, 115, 116], 287) /- Manifest -/,
  ([77, 97, 114, 107, 101, 114, 95, 101, 110, 100], 288) /- Marker_end -/,
  ([77, 97, 114, 107, 101, 114, 95, 109, 105, 100], 289) /- Marker_mid -/,
  ([77, 97, 114, 107, 101, 114, 95, 115, 116, 97, 114, 116], 290) /- Marker_start -/,
  ([77, 97, 114, 107, 101, 114, 72, 101, 105, 103, 104, 116], 291) /- MarkerHeight -/,
  ([77, 97, 114, 107, 101, 114, 85, 110, 105, 116, 115], 292) /- MarkerUnits -/,
  ([77, 97, 114, 107, 101, 114, 87, 105, 100, 116, 104], 293) /- MarkerWidth -/,
  ([77, 97, 114, 107, 101, 114, 104, 101, 105, 103, 104, 116], 294) /- Markerheight -/,
  ([77, 97, 114, 107, 101, 114, 117, 110, 105, 116, 115], 295) /- Markerunits -/,
  ([77, 97, 114, 107, 101, 114, 119, 105, 100, 116, 104], 296) /- Markerwidth -/,
  ([77, 97, 115, 107], 297) /- Mask -/,
  ([77, 97, 115, 107, 95, 116, 121, 112, 101], 298) /- Mask_type -/,
  ([77, 97, 115, 107, 67, 111, 110, 116, 101, 110, 116, 85, 110, 105, 116, 115], 299) /- MaskContentUnits -/,
  ([77, 97, 115, 107, 85, 110, 105, 116, 115], 300) /- MaskUnits -/,
  ([77, 97, 115, 107, 99, 111, 110, 116, 101, 110, 116, 117, 110, 105, 116, 115], 301) /- Maskcontentunits -/,
  ([77, 97, 115, 107, 117, 110, 105, 116, 115], 302) /- Maskunits -/,
  ([77, 97, 116, 104], 303) /- Math -/,
  ([77, 97, 116, 104, 95, 101, 108, 101, 109, 101, 110, 116], 304) /- Math_element -/,
  ([77, 97, 116, 104, 98, 97, 99, 107, 103, 114, 111, 117, 110, 100], 305) /- Mathbackground -/,
  ([77, 97, 116, 104, 99, 111, 108, 111, 114], 306) /- Mathcolor -/,
  ([77, 97, 116, 104, 115, 105, 122, 101], 307) /- Mathsize -/,
  ([77, 97, 116, 104, 118, 97, 114, 105, 97, 110, 116], 308) /- Mathvariant -/,
  ([77, 97, 120], 309) /- Max -/,
  ([77, 97, 120, 108, 101, 110, 103, 116, 104], 310) /- Maxlength -/,
  ([77, 97, 120, 115, 105, 122, 101], 311) /- Maxsize -/,
  ([77, 97, 120, 119, 105, 100, 116, 104], 312) /- Maxwidth -/,
  ([77, 101, 100, 105, 97], 313) /- Media -/,
  ([77, 101, 100, 105, 117, 109, 109, 97, 116, 104, 115, 112, 97, 99, 101], 314) /- Mediummathspace -/,
  ([77, 101, 110, 99, 108, 111, 115, 101], 315) /- Menclose -/,
  ([77, 101, 116, 104, 111, 100], 316) /- Method -/,
  ([77, 105, 110], 317) /- Min -/,
  ([77, 105, 110, 108, 97, 98, 101, 108, 115, 112, 97, 99, 105, 110, 103], 318) /- Minlabelspacing -/,
  ([77, 105, 110, 108, 101, 110, 103, 116, 104], 319) /- Minlength -/,
  ([77, 105, 110, 115, 105, 122, 101], 320) /- Minsize -/,
  ([77, 111, 100, 101], 321) /- Mode -/,
  ([77, 111, 118, 97, 98, 108, 101, 108, 105, 109, 105, 116, 115], 322) /- Movablelimits -/,
  ([77, 115, 103, 114, 111, 117, 112], 323) /- Msgroup -/,
  ([77, 115, 108, 105, 110, 101, 116, 104, 105, 99, 107, 110, 101, 115, 115], 324) /- Mslinethickness -/,
  ([77, 117, 108, 116, 105, 112, 108, 101], 325) /- Multiple -/,
  ([77, 117, 116, 101, 100], 326) /- Muted -/,
  ([78, 97, 109, 101], 327) /- Name -/,
  ([78, 97, 114, 103, 115], 328) /- Nargs -/,
  ([78, 101, 119, 108, 105, 110, 101], 329) /- Newline -/,
  ([78, 111, 109, 111, 100, 117, 108, 101], 330) /- Nomodule -/,
  ([78, 111, 110, 99, 101], 331) /- Nonce -/,
  ([78, 111, 116, 97, 116, 105, 111, 110], 332) /- Notation -/,
  ([78, 111, 118, 97, 108, 105, 100, 97, 116, 101], 333) /- Novalidate -/,
  ([78, 117, 109, 79, 99, 116, 97, 118, 101, 115], 334) /- NumOctaves -/,
  ([78, 117, 109, 97, 108, 105, 103, 110], 335) /- Numalign -/,
  ([78, 117, 109, 98, 101, 114], 336) /- Number -/,
  ([78, 117, 109, 111, 99, 116, 97, 118, 101, 115], 337) /- Numoctaves -/,
  ([79, 99, 99, 117, 114, 114, 101, 110, 99, 101], 338) /- Occurrence -/,
  ([79, 102, 102, 115, 101, 116], 339) /- Offset -/,
  ([79, 110, 97, 98, 111, 114, 116], 340) /- Onabort -/,
  ([79, 110, 97, 102, 116, 101, 114, 112, 114, 105, 110, 116], 341) /- Onafterprint -/,
  ([79, 110, 97, 117, 120, 99, 108, 105, 99, 107], 342) /- Onauxclick -/,
  ([79, 110, 98, 101, 102, 111, 114, 101, 112, 114, 105, 110, 116], 343) /- Onbeforeprint -/,
  ([79, 110, 98, 101, 102, 111, 114, 101, 117, 110, 108, 111, 97, 100], 344) /- Onbeforeunload -/,
  ([79, 110, 98, 101, 103, 105, 110], 345) /- Onbegin -/,
  ([79, 110, 98, 108, 117, 114], 346) /- Onblur -/,
  ([79, 110, 99, 97, 110, 99, 101, 108], 347) /- Oncancel -/,
  ([79, 110, 99, 97, 110, 112, 108, 97, 121], 348) /- Oncanplay -/,
  ([79, 110, 99, 97, 110, 112, 108, 97, 121, 116, 104, 114, 111, 117, 103, 104], 349) /- Oncanplaythrough -/,
  ([79, 110, 99, 104, 97, 110, 103, 101], 350) /- Onchange -/,
  ([79, 110, 99, 108, 105, 99, 107], 351) /- Onclick -/,
  ([79, 110, 99, 108, 111, 115, 101], 352) /- Onclose -/,
  ([79, 110, 99, 111, 110, 116, 101, 120, 116, 109, 101, 110, 117], 353) /- Oncontextmenu -/,
  ([79, 110, 99, 111, 112, 121], 354) /- Oncopy -/,
  ([79, 110, 99, 117, 101, 99, 104, 97, 110, 103, 101], 355) /- Oncuechange -/,
  ([79, 110, 99, 117, 116], 356) /- Oncut -/,
  ([79, 110, 100, 98, 108, 99, 108, 105, 99, 107], 357) /- Ondblclick -/,
  ([79, 110, 100, 114, 97, 103], 358) /- Ondrag -/,
  ([79, 110, 100, 114, 97, 103, 101, 110, 100], 359) /- Ondragend -/,
  ([79, 110, 100, 114, 97, 103, 101, 110, 116, 101, 114], 360) /- Ondragenter -/,
  ([79, 110, 100, 114, 97, 103, 101, 120, 105, 116], 361) /- Ondragexit -/,
  ([79, 110, 100, 114, 97, 103, 108, 101, 97, 118, 101], 362) /- Ondragleave -/,
  ([79, 110, 100, 114, 97, 103, 111, 118, 101, 114], 363) /- Ondragover -/,
  ([79, 110, 100, 114, 97, 103, 115, 116, 97, 114, 116], 364) /- Ondragstart -/,
  ([79, 110, 100, 114, 111, 112], 365) /- Ondrop -/,
  ([79, 110, 100, 117, 114, 97, 116, 105, 111, 110, 99, 104, 97, 110, 103, 101], 366) /- Ondurationchange -/,
  ([79, 110, 101, 109, 112, 116, 105, 101, 100], 367) /- Onemptied -/,
  ([79, 110, 101, 110, 100], 368) /- Onend -/,
  ([79, 110, 101, 110, 100, 101, 100], 369) /- Onended -/,
  ([79, 110, 101, 114, 114, 111, 114], 370) /- Onerror -/,
  ([79, 110, 102, 111, 99, 117, 115], 371) /- Onfocus -/,
  ([79, 110, 102, 111, 114, 109, 100, 97, 116, 97], 372) /- Onformdata -/,
  ([79, 110, 104, 97, 115, 104, 99, 104, 97, 110, 103, 101], 373) /- Onhashchange -/,
  ([79, 110, 105, 110, 112, 117, 116], 374) /- Oninput -/,
  ([79, 110, 105, 110, 118, 97, 108, 105, 100], 375) /- Oninvalid -/,
  ([79, 110, 107, 101, 121, 100, 111, 119, 110], 376) /- Onkeydown -/,
  ([79, 110, 107, 101, 121, 112, 114, 101, 115, 115], 377) /- Onkeypress -/,
  ([79, 110, 107, 101, 121, 117, 112], 378) /- Onkeyup -/,
  ([79, 110, 108, 97, 110, 103, 117, 97, 103, 101, 99, 104, 97, 110, 103, 101], 379) /- Onlanguagechange -/,
  ([79, 110, 108, 111, 97, 100], 380) /- Onload -/,
  ([79, 110, 108, 111, 97, 100, 101, 100, 100, 97, 116, 97], 381) /- Onloadeddata -/,
  ([79, 110, 108, 111, 97, 100, 101, 100, 109, 101, 116, 97, 100, 97, 116, 97], 382) /- Onloadedmetadata -/,
  ([79, 110, 108, 111, 97, 100, 115, 116, 97, 114, 116], 383) /- Onloadstart -/,
  ([79, 110, 109, 101, 115, 115, 97, 103, 101], 384) /- Onmessage -/,
  ([79, 110, 109, 101, 115, 115, 97, 103, 101, 101, 114, 114, 111, 114], 385) /- Onmessageerror -/,
  ([79, 110, 109, 111, 117, 115, 101, 100, 111, 119, 110], 386) /- Onmousedown -/,
  ([79, 110, 109, 111, 117, 115, 101, 101, 110, 116, 101, 114], 387) /- Onmouseenter -/,
  ([79, 110, 109, 111, 117, 115, 101, 108, 101, 97, 118, 101], 388) /- Onmouseleave -/,
  ([79, 110, 109, 111, 117, 115, 101, 109, 111, 118, 101], 389) /- Onmousemove -/,
  ([79, 110, 109, 111, 117, 115, 101, 111, 117, 116], 390) /- Onmouseout -/,
  ([79, 110, 109, 111, 117, 115, 101, 111, 118, 101, 114], 391) /- Onmouseover -/,
  ([79, 110, 109, 111, 117, 115, 101, 117, 112], 392) /- Onmouseup -/,
  ([79, 110, 111, 102, 102, 108, 105, 110, 101], 393) /- Onoffline -/,
  ([79, 110, 111, 110, 108, 105, 110, 101], 394) /- Ononline -/,
  ([79, 110, 112, 97, 103, 101, 104, 105, 100, 101], 395) /- Onpagehide -/,
  ([79, 110, 112, 97, 103, 101, 115, 104, 111, 119], 396) /- Onpageshow -/,
  ([79, 110, 112, 97, 115, 116, 101], 397) /- Onpaste -/,
  ([79, 110, 112, 97, 117, 115, 101], 398) /- Onpause -/,
  ([79, 110, 112, 108, 97, 121], 399) /- Onplay -/,
  ([79, 110, 112, 108, 97, 121, 105, 110, 103], 400) /- Onplaying -/,
  ([79, 110, 112, 111, 112, 115, 116, 97, 116, 101], 401) /- Onpopstate -/,
  ([79, 110, 112, 114, 111, 103, 114, 101, 115, 115], 402) /- Onprogress -/,
  ([79, 110, 114, 97, 116, 101, 99, 104, 97, 110, 103, 101], 403) /- Onratechange -/,
  ([79, 110, 114, 101, 106, 101, 99, 116, 105, 111, 110, 104, 97, 110, 100, 108, 101, 100], 404) /- Onrejectionhandled -/,
  ([79, 110, 114, 101, 112, 101, 97, 116], 405) /- Onrepeat -/,
  ([79, 110, 114, 101, 115, 101, 116], 406) /- Onreset -/,
  ([79, 110, 114, 101, 115, 105, 122, 101], 407) /- Onresize -/,
  ([79, 110, 115, 99, 114, 111, 108, 108], 408) /- Onscroll -/,
  ([79, 110, 115, 101, 99, 117, 114, 105, 116, 121, 112, 111, 108, 105, 99, 121, 118, 105, 111, 108, 97, 116, 105, 111, 110], 409) /- Onsecuritypolicyviolation -/,
  ([79, 110, 115, 101, 101, 107, 101, 100], 410) /- Onseeked -/,
  ([79, 110, 115, 101, 101, 107, 105, 110, 103], 411) /- Onseeking -/,
  ([79, 110, 115, 101, 108, 101, 99, 116], 412) /- Onselect -/,
  ([79, 110, 115, 104, 111, 119], 413) /- Onshow -/,
  ([79, 110, 115, 108, 111, 116, 99, 104, 97, 110, 103, 101], 414) /- Onslotchange -/,
  ([79, 110, 115, 116, 97, 108, 108, 101, 100], 415) /- Onstalled -/,
  ([79, 110, 115, 116, 111, 114, 97, 103, 101], 416) /- Onstorage -/,
  ([79, 110, 115, 117, 98, 109, 105, 116], 417) /- Onsubmit -/,
  ([79, 110, 115, 117, 115, 112, 101, 110, 100], 418) /- Onsuspend -/,
  ([79, 110, 116, 105, 109, 101, 117, 112, 100, 97, 116, 101], 419) /- Ontimeupdate -/,
  ([79, 110, 116, 111, 103, 103, 108, 101], 420) /- Ontoggle -/,
  ([79, 110, 117, 110, 104, 97, 110, 100, 108, 101, 100, 114, 101, 106, 101, 99, 116, 105, 111, 110], 421) /- Onunhandledrejection -/,
  ([79, 110, 117, 110, 108, 111, 97, 100], 422) /- Onunload -/,
  ([79, 110, 118, 111, 108, 117, 109, 101, 99, 104, 97, 110, 103, 101], 423) /- Onvolumechange -/,
  ([79, 110, 119, 97, 105, 116, 105, 110, 103], 424) /- Onwaiting -/,
  ([79, 110, 119, 104, 101, 101, 108], 425) /- Onwheel -/,
  ([79, 112, 97, 99, 105, 116, 121], 426) /- Opacity -/,
  ([79, 112, 101, 110], 427) /- Open -/,
  ([79, 112, 101, 114, 97, 116, 111, 114], 428) /- Operator -/,
  ([79, 112, 116, 105, 109, 117, 109], 429) /- Optimum -/,
  ([79, 114, 100, 101, 114], 430) /- Order -/,
  ([79, 114, 105, 101, 110, 116], 431) /- Orient -/,
  ([79, 114, 105, 103, 105, 110], 432) /- Origin -/,
  ([79, 116, 104, 101, 114], 433) /- Other -/,
  ([79, 118, 101, 114, 102, 108, 111, 119], 434) /- Overflow -/,
  ([80, 97, 105, 110, 116, 95, 111, 114, 100, 101, 114], 435) /- Paint_order -/,
  ([80, 97, 116, 104], 436) /- Path -/,
  ([80, 97, 116, 104, 76, 101, 110, 103, 116, 104], 437) /- PathLength -/,
  ([80, 97, 116, 104, 108, 101, 110, 103, 116, 104], 438) /- Pathlength -/,
  ([80, 97, 116, 116, 101, 114, 110], 439) /- Pattern -/,
  ([80, 97, 116, 116, 101, 114, 110, 67, 111, 110, 116, 101, 110, 116, 85, 110, 105, 116, 115], 440) /- PatternContentUnits -/,
  ([80, 97, 116, 116, 101, 114, 110, 84, 114, 97, 110, 115, 102, 111, 114, 109], 441) /- PatternTransform -/,
  ([80, 97, 116, 116, 101, 114, 110, 85, 110, 105, 116, 115], 442) /- PatternUnits -/,
  ([80, 97, 116, 116, 101, 114, 110, 99, 111, 110, 116, 101, 110, 116, 117, 110, 105, 116, 115], 443) /- Patterncontentunits -/,
  ([80, 97, 116, 116, 101, 114, 110, 116, 114, 97, 110, 115, 102, 111, 114, 109], 444) /- Patterntransform -/,
  ([80, 97, 116, 116, 101, 114, 110, 117, 110, 105, 116, 115], 445) /- Patternunits -/,
  ([80, 105, 110, 103], 446) /- Ping -/,
  ([80, 108, 97, 99, 101, 104, 111, 108, 100, 101, 114], 447) /- Placeholder -/,
  ([80, 108, 97, 121, 98, 97, 99, 107, 111, 114, 100, 101, 114], 448) /- Playbackorder -/,
  ([80, 108, 97, 121, 115, 105, 110, 108, 105, 110, 101], 449) /- Playsinline -/,
  ([80, 111, 105, 110, 116, 101, 114, 95, 101, 118, 101, 110, 116, 115], 450) /- Pointer_events -/,
  ([80, 111, 105, 110, 116, 115], 451) /- Points -/,
  ([80, 111, 105, 110, 116, 115, 65, 116, 88], 452) /- PointsAtX -/,
  ([80, 111, 105, 110, 116, 115, 65, 116, 89], 453) /- PointsAtY -/,
  ([80, 111, 105, 110, 116, 115, 65, 116, 90], 454) /- PointsAtZ -/,
  ([80, 111, 105, 110, 116, 115, 97, 116, 120], 455) /- Pointsatx -/,
  ([80, 111, 105, 110, 116, 115, 97, 116, 121], 456) /- Pointsaty -/,
  ([80, 111, 105, 110, 116, 115, 97, 116, 122], 457) /- Pointsatz -/,
  ([80, 111, 115, 105, 116, 105, 111, 110], 458) /- Position -/,
  ([80, 111, 115, 116, 101, 114], 459) /- Poster -/,
  ([80, 114, 101, 108, 111, 97, 100], 460) /- Preload -/,
  ([80, 114, 101, 115, 101, 114, 118, 101, 65, 108, 112, 104, 97], 461) /- PreserveAlpha -/,
  ([80, 114, 101, 115, 101, 114, 118, 101, 65, 115, 112, 101, 99, 116, 82, 97, 116, 105, 111], 462) /- PreserveAspectRatio -/,
  ([80, 114, 101, 115, 101, 114, 118, 101, 97, 108, 112, 104, 97], 463) /- Preservealpha -/,
  ([80, 114, 101, 115, 101, 114, 118, 101, 97, 115, 112, 101, 99, 116, 114, 97, 116, 105, 111], 464) /- Preserveaspectratio -/,
  ([80, 114, 105, 109, 105, 116, 105, 118, 101, 85, 110, 105, 116, 115], 465) /- PrimitiveUnits -/,
  ([80, 114, 105, 109, 105, 116, 105, 118, 101, 117, 110, 105, 116, 115], 466) /- Primitiveunits -/,
  ([82], 467) /- R -/,
  ([82, 97, 100, 105, 117, 115], 468) /- Radius -/,
  ([82, 101, 97, 100, 111, 110, 108, 121], 469) /- Readonly -/,
  ([82, 101, 102, 88], 470) /- RefX -/,
  ([82, 101, 102, 89], 471) /- RefY -/,
  ([82, 101, 102, 101, 114, 114, 101, 114, 112, 111, 108, 105, 99, 121], 472) /- Referrerpolicy -/,
  ([82, 101, 102, 120], 473) /- Refx -/,
  ([82, 101, 102, 121], 474) /- Refy -/,
  ([82, 101, 108], 475) /- Rel -/,
  ([82, 101, 112, 101, 97, 116, 67, 111, 117, 110, 116], 476) /- RepeatCount -/,
  ([82, 101, 112, 101, 97, 116, 68, 117, 114], 477) /- RepeatDur -/,
  ([82, 101, 112, 101, 97, 116, 99, 111, 117, 110, 116], 478) /- Repeatcount -/,
  ([82, 101, 112, 101, 97, 116, 100, 117, 114], 479) /- Repeatdur -/,
  ([82, 101, 113, 117, 105, 114, 101, 100], 480) /- Required -/,
  ([82, 101, 113, 117, 105, 114, 101, 100, 69, 120, 116, 101, 110, 115, 105, 111, 110, 115], 481) /- RequiredExtensions -/,
  ([82, 101, 113, 117, 105, 114, 101, 100, 70, 101, 97, 116, 117, 114, 101, 115], 482) /- RequiredFeatures -/,
  ([82, 101, 113, 117, 105, 114, 101, 100, 101, 120, 116, 101, 110, 115, 105, 111, 110, 115], 483) /- Requiredextensions -/,
  ([82, 101, 113, 117, 105, 114, 101, 100, 102, 101, 97, 116, 117, 114, 101, 115], 484) /- Requiredfeatures -/,
  ([82, 101, 115, 116, 97, 114, 116], 485) /- Restart -/,
  ([82, 101, 115, 117, 108, 116], 486) /- Result -/,
  ([82, 101, 118, 101, 114, 115, 101, 100], 487) /- Reversed -/,
  ([82, 105, 103, 104, 116, 111, 118, 101, 114, 104, 97, 110, 103], 488) /- Rightoverhang -/,
  ([82, 111, 108, 101], 489) /- Role -/,
  ([82, 111, 116, 97, 116, 101], 490) /- Rotate -/,
  ([82, 111, 119, 97, 108, 105, 103, 110], 491) /- Rowalign -/,
  ([82, 111, 119, 108, 105, 110, 101, 115], 492) /- Rowlines -/,
  ([82, 111, 119, 115], 493) /- Rows -/,
  ([82, 111, 119, 115, 112, 97, 99, 105, 110, 103], 494) /- Rowspacing -/,
  ([82, 111, 119, 115, 112, 97, 110], 495) /- Rowspan -/,
  ([82, 113, 117, 111, 116, 101], 496) /- Rquote -/,
  ([82, 115, 112, 97, 99, 101], 497) /- Rspace -/,
  ([83, 97, 110, 100, 98, 111, 120], 498) /- Sandbox -/,
  ([83, 99, 97, 108, 101], 499) /- Scale -/,
  ([83, 99, 104, 101, 109, 97, 76, 111, 99, 97, 116, 105, 111, 110], 500) /- SchemaLocation -/,
  ([83, 99, 104, 101, 109, 97, 108, 111, 99, 97, 116, 105, 111, 110], 501) /- Schemalocation -/,
  ([83, 99, 111, 112, 101], 502) /- Scope -/,
  ([83, 99, 114, 105, 112, 116, 108, 101, 118, 101, 108], 503) /- Scriptlevel -/,
  ([83, 99, 114, 105, 112, 116, 109, 105, 110, 115, 105, 122, 101], 504) /- Scriptminsize -/,
  ([83, 99, 114, 105, 112, 116, 115, 105, 122, 101], 505) /- Scriptsize -/,
  ([83, 99, 114, 105, 112, 116, 115, 105, 122, 101, 109, 117, 108, 116, 105, 112, 108, 105, 101, 114], 506) /- Scriptsizemultiplier -/,
  ([83, 101, 101, 100], 507) /- Seed -/,
  ([83, 101, 108, 101, 99, 116, 101, 100], 508) /- Selected -/,
  ([83, 101, 108, 101, 99, 116, 105, 111, 110], 509) /- Selection -/,
  ([83, 101, 112, 97, 114, 97, 116, 111, 114], 510) /- Separator -/,
  ([83, 101, 112, 97, 114, 97, 116, 111, 114, 115], 511) /- Separators -/,
  ([83, 104, 97, 112, 101], 512) /- Shape -/,
  ([83, 104, 97, 112, 101, 95, 114, 101, 110, 100, 101, 114, 105, 110, 103], 513) /- Shape_rendering -/,
  ([83, 104, 105, 102, 116], 514) /- Shift -/,
  ([83, 104, 111, 119], 515) /- Show -/,
  ([83, 105, 100, 101], 516) /- Side -/,
  ([83, 105, 122, 101], 517) /- Size -/,
  ([83, 105, 122, 101, 115], 518) /- Sizes -/,
  ([83, 108, 111, 112, 101], 519) /- Slope -/,
  ([83, 108, 111, 116], 520) /- Slot -/,
  ([83, 112, 97, 99, 101], 521) /- Space -/,
  ([83, 112, 97, 99, 105, 110, 103], 522) /- Spacing -/,
  ([83, 112, 97, 110], 523) /- Span -/,
  ([83, 112, 101, 99, 117, 108, 97, 114, 67, 111, 110, 115, 116, 97, 110, 116], 524) /- SpecularConstant -/,
  ([83, 112, 101, 99, 117, 108, 97, 114, 69, 120, 112, 111, 110, 101, 110, 116], 525) /- SpecularExponent -/,
  ([83, 112, 101, 99, 117, 108, 97, 114, 99, 111, 110, 115, 116, 97, 110, 116], 526) /- Specularconstant -/,
  ([83, 112, 101, 99, 117, 108, 97, 114, 101, 120, 112, 111, 110, 101, 110, 116], 527) /- Specularexponent -/,
  ([83, 112, 101, 108, 108, 99, 104, 101, 99, 107], 528) /- Spellcheck -/,
  ([83, 112, 114, 101, 97, 100, 77, 101, 116, 104, 111, 100], 529) /- SpreadMethod -/,
  ([83, 112, 114, 101, 97, 100, 109, 101, 116, 104, 111, 100], 530) /- Spreadmethod -/,
  ([83, 114, 99], 531) /- Src -/,
  ([83, 114, 99, 100, 111, 99], 532) /- Srcdoc -/,
  ([83, 114, 99, 108, 97, 110, 103], 533) /- Srclang -/,
  ([83, 114, 99, 115, 101, 116], 534) /- Srcset -/,
  ([83, 116, 97, 99, 107, 97, 108, 105, 103, 110], 535) /- Stackalign -/,
  ([83, 116, 97, 114, 116], 536) /- Start -/,
  ([83, 116, 97, 114, 116, 79, 102, 102, 115, 101, 116], 537) /- StartOffset -/,
  ([83, 116, 97, 114, 116, 111, 102, 102, 115, 101, 116], 538) /- Startoffset -/,
  ([83, 116, 100, 68, 101, 118, 105, 97, 116, 105, 111, 110], 539) /- StdDeviation -/,
  ([83, 116, 100, 100, 101, 118, 105, 97, 116, 105, 111, 110], 540) /- Stddeviation -/,
  ([83, 116, 101, 112], 541) /- Step -/,
  ([83, 116, 105, 116, 99, 104, 84, 105, 108, 101, 115], 542) /- StitchTiles -/,
  ([83, 116, 105, 116, 99, 104, 116, 105, 108, 101, 115], 543) /- Stitchtiles -/,
  ([83, 116, 111, 112, 95, 99, 111, 108, 111, 114], 544) /- Stop_color -/,
  ([83, 116, 111, 112, 95, 111, 112, 97, 99, 105, 116, 121], 545) /- Stop_opacity -/,
  ([83, 116, 114, 101, 116, 99, 104, 121], 546) /- Stretchy -/,
  ([83, 116, 114, 111, 107, 101], 547) /- Stroke -/,
  ([83, 116, 114, 111, 107, 101, 95, 100, 97, 115, 104, 97, 114, 114, 97, 121], 548) /- Stroke_dasharray -/,
  ([83, 116, 114, 111, 107, 101, 95, 100, 97, 115, 104, 111, 102, 102, 115, 101, 116], 549) /- Stroke_dashoffset -/,
  ([83, 116, 114, 111, 107, 101, 95, 108, 105, 110, 101, 99, 97, 112], 550) /- Stroke_linecap -/,
  ([83, 116, 114, 111, 107, 101, 95, 108, 105, 110, 101, 106, 111, 105, 110], 551) /- Stroke_linejoin -/,
  ([83, 116, 114, 111, 107, 101, 95, 109, 105, 116, 101, 114, 108, 105, 109, 105, 116], 552) /- Stroke_miterlimit -/,
  ([83, 116, 114, 111, 107, 101, 95, 111, 112, 97, 99, 105, 116, 121], 553) /- Stroke_opacity -/,
  ([83, 116, 114, 111, 107, 101, 95, 119, 105, 100, 116, 104], 554) /- Stroke_width -/,
  ([83, 116, 121, 108, 101], 555) /- Style -/,
  ([83, 117, 98, 115, 99, 114, 105, 112, 116, 115, 104, 105, 102, 116], 556) /- Subscriptshift -/,
  ([83, 117, 112, 101, 114, 115, 99, 114, 105, 112, 116, 115, 104, 105, 102, 116], 557) /- Superscriptshift -/,
  ([83, 117, 114, 102, 97, 99, 101, 83, 99, 97, 108, 101], 558) /- SurfaceScale -/,
  ([83, 117, 114, 102, 97, 99, 101, 115, 99, 97, 108, 101], 559) /- Surfacescale -/,
  ([83, 121, 109, 109, 101, 116, 114, 105, 99], 560) /- Symmetric -/,
  ([83, 121, 115, 116, 101, 109, 76, 97, 110, 103, 117, 97, 103, 101], 561) /- SystemLanguage -/,
  ([83, 121, 115, 116, 101, 109, 108, 97, 110, 103, 117, 97, 103, 101], 562) /- Systemlanguage -/,
  ([84, 97, 98, 105, 110, 100, 101, 120], 563) /- Tabindex -/,
  ([84, 97, 98, 108, 101, 86, 97, 108, 117, 101, 115], 564) /- TableValues -/,
  ([84, 97, 98, 108, 101, 118, 97, 108, 117, 101, 115], 565) /- Tablevalues -/,
  ([84, 97, 114, 103, 101, 116], 566) /- Target -/,
  ([84, 97, 114, 103, 101, 116, 88], 567) /- TargetX -/,
  ([84, 97, 114, 103, 101, 116, 89], 568) /- TargetY -/,
  ([84, 97, 114, 103, 101, 116, 120], 569) /- Targetx -/,
  ([84, 97, 114, 103, 101, 116, 121], 570) /- Targety -/,
  ([84, 101, 120, 116, 95, 97, 110, 99, 104, 111, 114], 571) /- Text_anchor -/,
  ([84, 101, 120, 116, 95, 100, 101, 99, 111, 114, 97, 116, 105, 111, 110], 572) /- Text_decoration -/,
  ([84, 101, 120, 116, 95, 114, 101, 110, 100, 101, 114, 105, 110, 103], 573) /- Text_rendering -/,
  ([84, 101, 120, 116, 76, 101, 110, 103, 116, 104], 574) /- TextLength -/,
  ([84, 101, 120, 116, 108, 101, 110, 103, 116, 104], 575) /- Textlength -/,
  ([84, 104, 105, 99, 107, 109, 97, 116, 104, 115, 112, 97, 99, 101], 576) /- Thickmathspace -/,
  ([84, 104, 105, 110, 109, 97, 116, 104, 115, 112, 97, 99, 101], 577) /- Thinmathspace -/,
  ([84, 105, 109, 101, 108, 105, 110, 101, 98, 101, 103, 105, 110], 578) /- Timelinebegin -/,
  ([84, 105, 116, 108, 101], 579) /- Title -/,
  ([84, 111], 580) /- To -/,
  ([84, 114, 97, 110, 115, 102, 111, 114, 109], 581) /- Transform -/,
  ([84, 114, 97, 110, 115, 102, 111, 114, 109, 95, 111, 114, 105, 103, 105, 110], 582) /- Transform_origin -/,
  ([84, 114, 97, 110, 115, 108, 97, 116, 101], 583) /- Translate -/,
  ([84, 121, 112, 101], 584) /- Type -/,
  ([85, 110, 105, 99, 111, 100, 101, 95, 98, 105, 100, 105], 585) /- Unicode_bidi -/,
  ([85, 115, 101, 109, 97, 112], 586) /- Usemap -/,
  ([86, 97, 108, 105, 103, 110], 587) /- Valign -/,
  ([86, 97, 108, 117, 101], 588) /- Value -/,
  ([86, 97, 108, 117, 101, 115], 589) /- Values -/,
  ([86, 101, 99, 116, 111, 114, 95, 101, 102, 102, 101, 99, 116], 590) /- Vector_effect -/,
  ([86, 101, 114, 121, 116, 104, 105, 99, 107, 109, 97, 116, 104, 115, 112, 97, 99, 101], 591) /- Verythickmathspace -/,
  ([86, 101, 114, 121, 116, 104, 105, 110, 109, 97, 116, 104, 115, 112, 97, 99, 101], 592) /- Verythinmathspace -/,
  ([86, 101, 114, 121, 118, 101, 114, 121, 116, 104, 105, 99, 107, 109, 97, 116, 104, 115, 112, 97, 99, 101], 593) /- Veryverythickmathspace -/,
  ([86, 101, 114, 121, 118, 101, 114, 121, 116, 104, 105, 110, 109, 97, 116, 104, 115, 112, 97, 99, 101], 594) /- Veryverythinmathspace -/,
  ([86, 105, 101, 119, 66, 111, 120], 595) /- ViewBox -/,
  ([86, 105, 101, 119, 84, 97, 114, 103, 101, 116], 596) /- ViewTarget -/,
  ([86, 105, 101, 119, 98, 111, 120], 597) /- Viewbox -/,
  ([86, 105, 101, 119, 116, 97, 114, 103, 101, 116], 598) /- Viewtarget -/,
  ([86, 105, 115, 105, 98, 105, 108, 105, 116, 121], 599) /- Visibility -/,
  ([86, 111, 102, 102, 115, 101, 116], 600) /- Voffset -/,
  ([87, 105, 100, 116, 104], 601) /- Width -/,
  ([87, 111, 114, 100, 95, 115, 112, 97, 99, 105, 110, 103], 602) /- Word_spacing -/,
  ([87, 114, 97, 112], 603) /- Wrap -/,
  ([87, 114, 105, 116, 105, 110, 103, 95, 109, 111, 100, 101], 604) /- Writing_mode -/,
  ([88], 605) /- X -/,
  ([88, 49], 606) /- X1 -/,
  ([88, 50], 607) /- X2 -/,
  ([88, 67, 104, 97, 110, 110, 101, 108, 83, 101, 108, 101, 99, 116, 111, 114], 608) /- XChannelSelector -/,
  ([88, 99, 104, 97, 110, 110, 101, 108, 115, 101, 108, 101, 99, 116, 111, 114], 609) /- Xchannelselector -/,
  ([88, 108, 105, 110, 107], 610) /- Xlink -/,
  ([88, 108, 105, 110, 107, 95, 97, 99, 116, 117, 97, 116, 101], 611) /- Xlink_actuate -/,
  ([88, 108, 105, 110, 107, 95, 97, 114, 99, 114, 111, 108, 101], 612) /- Xlink_arcrole -/,
  ([88, 108, 105, 110, 107, 95, 104, 114, 101, 102], 613) /- Xlink_href -/,
  ([88, 108, 105, 110, 107, 95, 114, 111, 108, 101], 614) /- Xlink_role -/,
  ([88, 108, 105, 110, 107, 95, 115, 104, 111, 119], 615) /- Xlink_show -/,
  ([88, 108, 105, 110, 107, 95, 116, 105, 116, 108, 101], 616) /- Xlink_title -/,
  ([88, 108, 105, 110, 107, 95, 116, 121, 112, 101], 617) /- Xlink_type -/,
  ([88, 109, 108], 618) /- Xml -/,
  ([88, 109, 108, 95, 108, 97, 110, 103], 619) /- Xml_lang -/,
  ([88, 109, 108, 95, 115, 112, 97, 99, 101], 620) /- Xml_space -/,
  ([88, 109, 108, 110, 115], 621) /- Xmlns -/,
  ([88, 109, 108, 110, 115, 95, 120, 108, 105, 110, 107], 622) /- Xmlns_xlink -/,
  ([88, 114, 101, 102], 623) /- Xref -/,
  ([88, 115, 105, 95, 115, 99, 104, 101, 109, 97, 76, 111, 99, 97, 116, 105, 111, 110], 624) /- Xsi_schemaLocation -/,
  ([88, 115, 105, 95, 115, 99, 104, 101, 109, 97, 108, 111, 99, 97, 116, 105, 111, 110], 625) /- Xsi_schemalocation -/,
  ([89], 626) /- Y -/,
  ([89, 49], 627) /- Y1 -/,
  ([89, 50], 628) /- Y2 -/,
  ([89, 67, 104, 97, 110, 110, 101, 108, 83, 101, 108, 101, 99, 116, 111, 114], 629) /- YChannelSelector -/,
  ([89, 99, 104, 97, 110, 110, 101, 108, 115, 101, 108, 101, 99, 116, 111, 114], 630) /- Ychannelselector -/,
  ([90], 631) /- Z -/,
  ([90, 111, 111, 109, 65, 110, 100, 80, 97, 110], 632) /- ZoomAndPan -/,
  ([90, 111, 111, 109, 97, 110, 100, 112, 97, 110], 633) /- Zoomandpan -/
]

end Verif.Model.Tables.HtmlAtom
