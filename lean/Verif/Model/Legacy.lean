import Verif.Model.Coder
import Verif.Model.Tables.Big5
import Verif.Model.Tables.EucKr
import Verif.Model.Tables.Gb18030
import Verif.Model.Tables.Jis
import Verif.Model.Tables.Single
/-
Model of the legacy coders of include/wordring/whatwg/encoding/coder.hpp and of the functions of encoding.hpp that choose
a coder by name.

`uint8_t` and `uint32_t` states are `Nat`s. The lead bytes kept in the states are 0 or at least 0x81 (checked before they
are stored), so the subtractions of the pointer computations do not wrap.
-/
namespace Verif.Model.Legacy
open Verif.Model.Coder Verif.Model.Table Verif.Model.Tables

/-- `single_byte_decoder<index>::run` (coder.hpp:268-283). -/
def singleD (index : Table) : Run Unit := fun s item =>
  match item with
  | .eoq => some (.finished, s, [])
  | .val v =>
    let byte := v % 256
    if byte ≤ 0x7F then some (.points [byte], s, [])
    else
      match codePoint index (byte - 0x80) with
      | none => some (.err, s, [])
      | some cp => some (.points [cp], s, [])

/-- `single_byte_encoder<index_0, index_1>::run` (294-309). -/
def singleE (index0 index1 : Table) : Run Unit := fun s item =>
  match item with
  | .eoq => some (.finished, s, [])
  | .val cp =>
    if cp ≤ 0x7F then some (.bytes [cp % 256], s, [])
    else
      match pointer index0 index1 cp with
      | none => some (.error cp, s, [])
      | some p => some (.bytes [(p + 0x80) % 256], s, [])

/-- `get_index_gb18030_ranges_code_point` (38-58). Outer `none` = failed assertion. -/
def rangesCodePoint (pointer : Nat) : Option (Option Nat) :=
  if (39419 < pointer ∧ pointer < 189000) ∨ 1237575 < pointer then some none
  else if pointer = 7457 then some (some 0xE7C7)
  else
    match rangeOf pointer none cpRanges with
    | none => none
    | some (offset, cpOffset) => some (some ((cpOffset + (pointer - offset)) % 2 ^ 32))

/-- `get_index_gb18030_ranges_pointer` (65-85); `none` = failed assertion. -/
def rangesPointer (cp : Nat) : Option Nat :=
  if cp = 0xE7C7 then some 7457
  else
    match rangeOf cp none ptrRanges with
    | none => none
    | some (offset, ptrOffset) => some ((ptrOffset + (cp - offset)) % 2 ^ 32)

/-- State of `gb18030_decoder` (529-531). -/
structure GbD where
  first : Nat
  second : Nat
  third : Nat
deriving DecidableEq, Repr

/-- `gb18030_decoder()` (437-442), `reset()` (521-526). -/
def GbD.init : GbD := ⟨0, 0, 0⟩

/-- `gb18030_decoder::run` (444-518). -/
def gbD : Run GbD := fun s item =>
  match item with
  | .eoq =>
    if s.first = 0 ∧ s.second = 0 ∧ s.third = 0 then some (.finished, s, []) else some (.err, ⟨0, 0, 0⟩, [])
  | .val v =>
    let byte := v % 256
    if s.third ≠ 0 then
      if ¬ (0x30 ≤ byte ∧ byte ≤ 0x39) then
        some (.err, ⟨0, 0, 0⟩, [.val (s.second % 256), .val (s.third % 256), .val byte])
      else
        match rangesCodePoint
          ((s.first - 0x81) * 12600 + (s.second - 0x30) * 1260 + (s.third - 0x81) * 10 + byte - 0x30) with
        | none => none
        | some none => some (.err, ⟨0, 0, 0⟩, [])
        | some (some cp) => some (.points [cp], ⟨0, 0, 0⟩, [])
    else if s.second ≠ 0 then
      if 0x81 ≤ byte ∧ byte ≤ 0xFE then some (.cont, { s with third := byte }, [])
      else some (.err, { s with first := 0, second := 0 }, [.val (s.second % 256), .val byte])
    else if s.first ≠ 0 then
      if 0x30 ≤ byte ∧ byte ≤ 0x39 then some (.cont, { s with second := byte }, [])
      else
        let lead := s.first
        let offset := if byte < 0x7F then 0x40 else 0x41
        let pointer := if (0x40 ≤ byte ∧ byte ≤ 0x7E) ∨ (0x80 ≤ byte ∧ byte ≤ 0xFE) then
          some ((lead - 0x81) * 190 + (byte - offset)) else none
        match pointer.bind (codePoint cpGb18030) with
        | some cp => some (.points [cp], { s with first := 0 }, [])
        | none => some (.err, { s with first := 0 }, if byte ≤ 0x7F then [.val byte] else [])
    else if byte ≤ 0x7F then some (.points [byte], s, [])
    else if byte = 0x80 then some (.points [0x20AC], s, [])
    else if 0x81 ≤ byte ∧ byte ≤ 0xFE then some (.cont, { s with first := byte }, [])
    else some (.err, s, [])

/-- `basic_gb18030_encoder<GBK_flag>::run` (542-593). -/
def gbE (gbk : Bool) : Run Unit := fun s item =>
  match item with
  | .eoq => some (.finished, s, [])
  | .val cp =>
    if cp ≤ 0x7F then some (.bytes [cp % 256], s, [])
    else if cp = 0xE5E5 then some (.error cp, s, [])
    else if gbk = true ∧ cp = 0x20AC then some (.bytes [0x80], s, [])
    else
      match pointer ptr0Gb18030 ptr1Gb18030 cp with
      | some p =>
        let lead := p / 190 + 0x81
        let trail := p % 190
        let offset := if trail < 0x3F then 0x40 else 0x41
        some (.bytes [lead % 256, (trail + offset) % 256], s, [])
      | none =>
        if gbk = true then some (.error cp, s, [])
        else
          match rangesPointer cp with
          | none => none
          | some p =>
            let byte1 := p / (10 * 126 * 10) % 256
            let p := p % (10 * 126 * 10)
            let byte2 := p / (10 * 126) % 256
            let p := p % (10 * 126)
            let byte3 := p / 10 % 256
            let byte4 := p % 10 % 256
            some (.bytes [(byte1 + 0x81) % 256, (byte2 + 0x30) % 256, (byte3 + 0x81) % 256, (byte4 + 0x30) % 256], s, [])

/-- `Big5_decoder::run` (617-671); the state is `big5_lead`. The pointer is computed only for trail bytes 0x40-0x7E. -/
def big5D : Run Nat := fun lead item =>
  match item with
  | .eoq => if lead ≠ 0 then some (.err, 0, []) else some (.finished, lead, [])
  | .val v =>
    let byte := v % 256
    if lead ≠ 0 then
      let offset := if byte < 0x7F then 0x40 else 0x62
      let fail : Option (Res × Nat × List Item) := some (.err, 0, if byte ≤ 0x7F then [.val byte] else [])
      if 0x40 ≤ byte ∧ byte ≤ 0x7E then
        let pointer := ((lead - 0x81) * 157 + (byte - offset)) % 65536
        if pointer = 1133 then some (.points [0xCA, 0x304], 0, [])
        else if pointer = 1135 then some (.points [0xCA, 0x30C], 0, [])
        else if pointer = 1164 then some (.points [0xEA, 0x304], 0, [])
        else if pointer = 1166 then some (.points [0xEA, 0x30C], 0, [])
        else
          match codePoint cpBig5 pointer with
          | some cp => some (.points [cp], 0, [])
          | none => fail
      else fail
    else if byte ≤ 0x7F then some (.points [byte], lead, [])
    else if 0x81 ≤ byte ∧ byte ≤ 0xFE then some (.cont, byte, [])
    else some (.err, lead, [])

/-- `Big5_encoder::run` (684-705). -/
def big5E : Run Unit := fun s item =>
  match item with
  | .eoq => some (.finished, s, [])
  | .val cp =>
    if cp ≤ 0x7F then some (.bytes [cp % 256], s, [])
    else
      match pointer ptr0Big5 ptr1Big5 cp with
      | none => some (.error cp, s, [])
      | some p =>
        let lead := (p / 157 + 0x81) % 256
        let trail := p % 157 % 256
        let offset := if trail < 0x3F then 0x40 else 0x62
        some (.bytes [lead, (trail + offset) % 256], s, [])

/-- State of `EUC_JP_decoder` (785-786). -/
structure EucJpD where
  flag : Bool
  lead : Nat
deriving DecidableEq, Repr

/-- `EUC_JP_decoder()` (721). -/
def EucJpD.init : EucJpD := ⟨false, 0⟩

/-- `EUC_JP_decoder::run` (723-782). -/
def eucJpD : Run EucJpD := fun s item =>
  match item with
  | .eoq => if s.lead ≠ 0 then some (.err, { s with lead := 0 }, []) else some (.finished, s, [])
  | .val v =>
    let byte := v % 256
    if s.lead = 0x8E ∧ 0xA1 ≤ byte ∧ byte ≤ 0xDF then some (.points [0xFF61 - 0xA1 + byte], { s with lead := 0 }, [])
    else if s.lead = 0x8F ∧ 0xA1 ≤ byte ∧ byte ≤ 0xFE then some (.cont, ⟨true, byte⟩, [])
    else if s.lead ≠ 0 then
      let cp :=
        if (0xA1 ≤ s.lead ∧ s.lead ≤ 0xFE) ∧ 0xA1 ≤ byte ∧ byte ≤ 0xFE then
          codePoint (if s.flag then cpJis0212 else cpJis0208) (((s.lead - 0xA1) * 94 + byte - 0xA1) % 65536)
        else none
      match cp with
      | some cp => some (.points [cp], ⟨false, 0⟩, [])
      | none => some (.err, ⟨false, 0⟩, if byte ≤ 0x7F then [.val byte] else [])
    else if byte ≤ 0x7F then some (.points [byte], s, [])
    else if byte = 0x8E ∨ byte = 0x8F ∨ (0xA1 ≤ byte ∧ byte ≤ 0xFE) then some (.cont, { s with lead := byte }, [])
    else some (.err, s, [])

/-- `EUC_JP_encoder::run` (796-823). -/
def eucJpE : Run Unit := fun s item =>
  match item with
  | .eoq => some (.finished, s, [])
  | .val cp =>
    if cp ≤ 0x7F then some (.bytes [cp % 256], s, [])
    else if cp = 0xA5 then some (.bytes [0x5C], s, [])
    else if cp = 0x203E then some (.bytes [0x7E], s, [])
    else if 0xFF61 ≤ cp ∧ cp ≤ 0xFF9F then some (.bytes [0x8E, (cp - 0xFF61 + 0xA1) % 256], s, [])
    else
      let cp := if cp = 0x2212 then 0xFF0D else cp
      match pointer ptr0Jis0208 ptr1Jis0208 cp with
      | none => some (.error cp, s, [])
      | some p => some (.bytes [(p / 94 + 0xA1) % 256, (p % 94 + 0xA1) % 256], s, [])

/-- `ISO_2022_JP_decoder::state` (839-842). -/
inductive JpState
  | ascii | roman | katakana | lead | trail | escStart | esc
deriving DecidableEq, Repr

/-- State of `ISO_2022_JP_decoder` (1028-1031). -/
structure JpD where
  state : JpState
  output : JpState
  lead : Nat
  flag : Bool
deriving DecidableEq, Repr

/-- `ISO_2022_JP_decoder()` (845-851). -/
def JpD.init : JpD := ⟨.ascii, .ascii, 0, false⟩

/-- The states an escape sequence leads to (1000-1004). -/
def escapeTo (lead byte : Nat) : Option JpState :=
  if lead = 0x28 ∧ byte = 0x42 then some .ascii
  else if lead = 0x28 ∧ byte = 0x4A then some .roman
  else if lead = 0x28 ∧ byte = 0x49 then some .katakana
  else if lead = 0x24 ∧ (byte = 0x40 ∨ byte = 0x42) then some .lead
  else none

/-- `ISO_2022_JP_decoder::run` (853-1025). -/
def jpD : Run JpD := fun s item =>
  match s.state with
  | .ascii =>
    match item with
    | .eoq => some (.finished, s, [])
    | .val v =>
      let byte := v % 256
      if byte = 0x1B then some (.cont, { s with state := .escStart }, [])
      else if byte ≤ 0x7F ∧ byte ≠ 0x0E ∧ byte ≠ 0x0F then some (.points [byte], { s with flag := false }, [])
      else some (.err, { s with flag := false }, [])
  | .roman =>
    match item with
    | .eoq => some (.finished, s, [])
    | .val v =>
      let byte := v % 256
      if byte = 0x1B then some (.cont, { s with state := .escStart }, [])
      else if byte = 0x5C then some (.points [0xA5], { s with flag := false }, [])
      else if byte = 0x7E then some (.points [0x203E], { s with flag := false }, [])
      else if byte ≤ 0x7F ∧ byte ≠ 0x0E ∧ byte ≠ 0x0F then some (.points [byte], { s with flag := false }, [])
      else some (.err, { s with flag := false }, [])
  | .katakana =>
    match item with
    | .eoq => some (.finished, s, [])
    | .val v =>
      let byte := v % 256
      if byte = 0x1B then some (.cont, { s with state := .escStart }, [])
      else if 0x21 ≤ byte ∧ byte ≤ 0x5F then some (.points [0xFF61 - 0x21 + byte], { s with flag := false }, [])
      else some (.err, { s with flag := false }, [])
  | .lead =>
    match item with
    | .eoq => some (.finished, s, [])
    | .val v =>
      let byte := v % 256
      if byte = 0x1B then some (.cont, { s with state := .escStart }, [])
      else if 0x21 ≤ byte ∧ byte ≤ 0x7E then some (.cont, { s with flag := false, lead := byte, state := .trail }, [])
      else some (.err, { s with flag := false }, [])
  | .trail =>
    match item with
    | .eoq => some (.err, { s with state := .lead }, [.eoq])
    | .val v =>
      let byte := v % 256
      if byte = 0x1B then some (.err, { s with state := .escStart }, [])
      else if 0x21 ≤ byte ∧ byte ≤ 0x7E then
        match codePoint cpJis0208 (((s.lead - 0x21) * 94 + byte - 0x21) % 65536) with
        | none => some (.err, { s with state := .lead }, [])
        | some cp => some (.points [cp], { s with state := .lead }, [])
      else some (.err, { s with state := .lead }, [])
  | .escStart =>
    match item with
    | .eoq => some (.err, { s with flag := false, state := s.output }, [])
    | .val v =>
      let byte := v % 256
      if byte = 0x24 ∨ byte = 0x28 then some (.cont, { s with lead := byte, state := .esc }, [])
      else some (.err, { s with flag := false, state := s.output }, [.val byte])
  | .esc =>
    match item with
    | .eoq => none
    | .val v =>
      let byte := v % 256
      match escapeTo s.lead byte with
      | some st => some (if s.flag = false then .cont else .err, ⟨st, st, 0, true⟩, [])
      | none => some (.err, ⟨s.output, s.output, 0, false⟩, [.val s.lead, .val byte])

/-- `ISO_2022_JP_encoder::state` (1041-1044). -/
inductive JpE
  | ascii | roman | jis0208
deriving DecidableEq, Repr

/-- `ISO_2022_JP_encoder::run` (1052-1125). Step 11 tests `!= jis0208` where the standard tests `== jis0208`. -/
def jpE : Run JpE := fun s item =>
  match item with
  | .eoq => if s ≠ .ascii then some (.bytes [0x1B, 0x28, 0x42], .ascii, [.eoq]) else some (.finished, s, [])
  | .val cp =>
    if (s = .ascii ∨ s = .roman) ∧ (cp = 0xE ∨ cp = 0xF ∨ cp = 0x1B) then some (.error 0xFFFD, s, [])
    else if s = .ascii ∧ cp ≤ 0x7F then some (.bytes [cp % 256], s, [])
    else if s = .roman ∧ ((cp ≤ 0x7F ∧ cp ≠ 0x5C ∧ cp ≠ 0x7E) ∨ cp = 0xA5 ∨ cp = 0x203E) then
      if cp ≤ 0x7F then some (.bytes [cp % 256], s, [])
      else if cp = 0xA5 then some (.bytes [0x5C], s, [])
      else some (.bytes [0x7E], s, [])
    else if cp ≤ 0x7F ∧ s ≠ .ascii then some (.bytes [0x1B, 0x28, 0x42], .ascii, [.val cp])
    else if (cp = 0xA5 ∨ cp = 0x203E) ∧ s ≠ .roman then some (.bytes [0x1B, 0x28, 0x4A], .roman, [.val cp])
    else
      let cp := if cp = 0x2212 then 0xFF0D else cp
      let cp? := if 0xFF61 ≤ cp ∧ cp ≤ 0xFF9F then codePoint cpIso2022JpKatakana (cp - 0xFF61) else some cp
      match cp? with
      | none => none
      | some cp =>
        match pointer ptr0Jis0208 ptr1Jis0208 cp with
        | none =>
          if s ≠ .jis0208 then some (.bytes [0x1B, 0x28, 0x42], .ascii, [.val cp]) else some (.error cp, s, [])
        | some p =>
          if s ≠ .jis0208 then some (.bytes [0x1B, 0x24, 0x42], .jis0208, [.val cp])
          else some (.bytes [(p / 94 + 0x21) % 256, (p % 94 + 0x21) % 256], s, [])

/-- `Shift_JIS_decoder::run` (1150-1201); the state is `Shift_JIS_lead`. -/
def sjisD : Run Nat := fun lead item =>
  match item with
  | .eoq => if lead ≠ 0 then some (.err, 0, []) else some (.finished, lead, [])
  | .val v =>
    let byte := v % 256
    if lead ≠ 0 then
      let offset := if byte < 0x7F then 0x40 else 0x41
      let leadOffset := if lead < 0xA0 then 0x81 else 0xC1
      let pointer := if (0x40 ≤ byte ∧ byte ≤ 0x7E) ∨ (0x80 ≤ byte ∧ byte ≤ 0xFC) then
        some (((lead - leadOffset) * 188 + byte - offset) % 65536) else none
      match pointer with
      | some p =>
        if 8836 ≤ p ∧ p ≤ 10715 then some (.points [0xE000 - 8836 + p], 0, [])
        else
          match codePoint cpJis0208 p with
          | some cp => some (.points [cp], 0, [])
          | none => some (.err, 0, if byte ≤ 0x7F then [.val byte] else [])
      | none => some (.err, 0, if byte ≤ 0x7F then [.val byte] else [])
    else if byte ≤ 0x7F ∨ byte = 0x80 then some (.points [byte], lead, [])
    else if 0xA1 ≤ byte ∧ byte ≤ 0xDF then some (.points [0xFF61 - 0xA1 + byte], lead, [])
    else if (0x81 ≤ byte ∧ byte ≤ 0x9F) ∨ (0xE0 ≤ byte ∧ byte ≤ 0xFC) then some (.cont, byte, [])
    else some (.err, lead, [])

/-- `Shift_JIS_encoder::run` (1214-1245). -/
def sjisE : Run Unit := fun s item =>
  match item with
  | .eoq => some (.finished, s, [])
  | .val cp =>
    if cp ≤ 0x7F ∨ cp = 0x80 then some (.bytes [cp % 256], s, [])
    else if cp = 0xA5 then some (.bytes [0x5C], s, [])
    else if cp = 0x203E then some (.bytes [0x7E], s, [])
    else if 0xFF61 ≤ cp ∧ cp ≤ 0xFF9F then some (.bytes [(cp - 0xFF61 + 0xA1) % 256], s, [])
    else
      let cp := if cp = 0x2212 then 0xFF0D else cp
      match pointer ptr0ShiftJIS ptr1ShiftJIS cp with
      | none => some (.error cp, s, [])
      | some p =>
        let lead := p / 188 % 256
        let leadOffset := if lead < 0x1F then 0x81 else 0xC1
        let trail := p % 188 % 256
        let offset := if trail < 0x3F then 0x40 else 0x41
        some (.bytes [(lead + leadOffset) % 256, (trail + offset) % 256], s, [])

/-- `EUC_KR_decoder::run` (1266-1307); the state is `EUC_KR_lead`. -/
def eucKrD : Run Nat := fun lead item =>
  match item with
  | .eoq => if lead ≠ 0 then some (.err, 0, []) else some (.finished, lead, [])
  | .val v =>
    let byte := v % 256
    if lead ≠ 0 then
      let pointer := if 0x41 ≤ byte ∧ byte ≤ 0xFE then some (((lead - 0x81) * 190 + (byte - 0x41)) % 65536) else none
      match pointer.bind (codePoint cpEucKr) with
      | some cp => some (.points [cp], 0, [])
      | none => some (.err, 0, if byte ≤ 0x7F then [.val byte] else [])
    else if byte ≤ 0x7F then some (.points [byte], lead, [])
    else if 0x81 ≤ byte ∧ byte ≤ 0xFE then some (.cont, byte, [])
    else some (.err, lead, [])

/-- `EUC_KR_encoder::run` (1320-1339). -/
def eucKrE : Run Unit := fun s item =>
  match item with
  | .eoq => some (.finished, s, [])
  | .val cp =>
    if cp ≤ 0x7F then some (.bytes [cp % 256], s, [])
    else
      match pointer ptr0EucKr ptr1EucKr cp with
      | none => some (.error cp, s, [])
      | some p => some (.bytes [(p / 190 + 0x81) % 256, (p % 190 + 0x41) % 256], s, [])

/-! ### Choosing a coder -/

/-- `encoding_name` (encoding_defs.hpp:58-110). -/
inductive Enc
  | UTF_8
  | IBM866
  | ISO_8859_2
  | ISO_8859_3
  | ISO_8859_4
  | ISO_8859_5
  | ISO_8859_6
  | ISO_8859_7
  | ISO_8859_8
  | ISO_8859_8_I
  | ISO_8859_10
  | ISO_8859_13
  | ISO_8859_14
  | ISO_8859_15
  | ISO_8859_16
  | KOI8_R
  | KOI8_U
  | macintosh
  | windows_874
  | windows_1250
  | windows_1251
  | windows_1252
  | windows_1253
  | windows_1254
  | windows_1255
  | windows_1256
  | windows_1257
  | windows_1258
  | x_mac_cyrillic
  | GBK
  | gb18030
  | Big5
  | EUC_JP
  | ISO_2022_JP
  | Shift_JIS
  | EUC_KR
  | replacement
  | UTF_16BE
  | UTF_16LE
  | x_user_defined
deriving DecidableEq, Repr

/-- An alternative of `coder` (coder.hpp:1521-1597) with its initial state. -/
structure Coder where
  σ : Type
  init : σ
  run : Run σ

/-- `get_encoding_decoder` (encoding.hpp:224-279). -/
def decoderOf : Enc → Coder
  | .UTF_8 => ⟨Utf8D, .init, utf8D⟩
  | .IBM866 => ⟨Unit, (), singleD cpIbm866⟩
  | .ISO_8859_2 => ⟨Unit, (), singleD cpIso88592⟩
  | .ISO_8859_3 => ⟨Unit, (), singleD cpIso88593⟩
  | .ISO_8859_4 => ⟨Unit, (), singleD cpIso88594⟩
  | .ISO_8859_5 => ⟨Unit, (), singleD cpIso88595⟩
  | .ISO_8859_6 => ⟨Unit, (), singleD cpIso88596⟩
  | .ISO_8859_7 => ⟨Unit, (), singleD cpIso88597⟩
  | .ISO_8859_8 => ⟨Unit, (), singleD cpIso88598⟩
  | .ISO_8859_8_I => ⟨Unit, (), singleD cpIso88598⟩
  | .ISO_8859_10 => ⟨Unit, (), singleD cpIso885910⟩
  | .ISO_8859_13 => ⟨Unit, (), singleD cpIso885913⟩
  | .ISO_8859_14 => ⟨Unit, (), singleD cpIso885914⟩
  | .ISO_8859_15 => ⟨Unit, (), singleD cpIso885915⟩
  | .ISO_8859_16 => ⟨Unit, (), singleD cpIso885916⟩
  | .KOI8_R => ⟨Unit, (), singleD cpKoi8R⟩
  | .KOI8_U => ⟨Unit, (), singleD cpKoi8U⟩
  | .macintosh => ⟨Unit, (), singleD cpMacintosh⟩
  | .windows_874 => ⟨Unit, (), singleD cpWindows874⟩
  | .windows_1250 => ⟨Unit, (), singleD cpWindows1250⟩
  | .windows_1251 => ⟨Unit, (), singleD cpWindows1251⟩
  | .windows_1252 => ⟨Unit, (), singleD cpWindows1252⟩
  | .windows_1253 => ⟨Unit, (), singleD cpWindows1253⟩
  | .windows_1254 => ⟨Unit, (), singleD cpWindows1254⟩
  | .windows_1255 => ⟨Unit, (), singleD cpWindows1255⟩
  | .windows_1256 => ⟨Unit, (), singleD cpWindows1256⟩
  | .windows_1257 => ⟨Unit, (), singleD cpWindows1257⟩
  | .windows_1258 => ⟨Unit, (), singleD cpWindows1258⟩
  | .x_mac_cyrillic => ⟨Unit, (), singleD cpXMacCyrillic⟩
  | .GBK => ⟨GbD, .init, gbD⟩
  | .gb18030 => ⟨GbD, .init, gbD⟩
  | .Big5 => ⟨Nat, 0, big5D⟩
  | .EUC_JP => ⟨EucJpD, .init, eucJpD⟩
  | .ISO_2022_JP => ⟨JpD, .init, jpD⟩
  | .Shift_JIS => ⟨Nat, 0, sjisD⟩
  | .EUC_KR => ⟨Nat, 0, eucKrD⟩
  | .replacement => ⟨Bool, false, replacementD⟩
  | .UTF_16BE => ⟨Utf16D, .init, utf16D true⟩
  | .UTF_16LE => ⟨Utf16D, .init, utf16D false⟩
  | .x_user_defined => ⟨Unit, (), userDefinedD⟩

/-- `get_encoding_encoder` (283-335), `get_encoder` (558-563); `none` = failed assertion. -/
def encoderOf : Enc → Option Coder
  | .UTF_8 => some ⟨Unit, (), utf8E⟩
  | .IBM866 => some ⟨Unit, (), singleE ptr0Ibm866 ptr1Ibm866⟩
  | .ISO_8859_2 => some ⟨Unit, (), singleE ptr0Iso88592 ptr1Iso88592⟩
  | .ISO_8859_3 => some ⟨Unit, (), singleE ptr0Iso88593 ptr1Iso88593⟩
  | .ISO_8859_4 => some ⟨Unit, (), singleE ptr0Iso88594 ptr1Iso88594⟩
  | .ISO_8859_5 => some ⟨Unit, (), singleE ptr0Iso88595 ptr1Iso88595⟩
  | .ISO_8859_6 => some ⟨Unit, (), singleE ptr0Iso88596 ptr1Iso88596⟩
  | .ISO_8859_7 => some ⟨Unit, (), singleE ptr0Iso88597 ptr1Iso88597⟩
  | .ISO_8859_8 => some ⟨Unit, (), singleE ptr0Iso88598 ptr1Iso88598⟩
  | .ISO_8859_8_I => some ⟨Unit, (), singleE ptr0Iso88598 ptr1Iso88598⟩
  | .ISO_8859_10 => some ⟨Unit, (), singleE ptr0Iso885910 ptr1Iso885910⟩
  | .ISO_8859_13 => some ⟨Unit, (), singleE ptr0Iso885913 ptr1Iso885913⟩
  | .ISO_8859_14 => some ⟨Unit, (), singleE ptr0Iso885914 ptr1Iso885914⟩
  | .ISO_8859_15 => some ⟨Unit, (), singleE ptr0Iso885915 ptr1Iso885915⟩
  | .ISO_8859_16 => some ⟨Unit, (), singleE ptr0Iso885916 ptr1Iso885916⟩
  | .KOI8_R => some ⟨Unit, (), singleE ptr0Koi8R ptr1Koi8R⟩
  | .KOI8_U => some ⟨Unit, (), singleE ptr0Koi8U ptr1Koi8U⟩
  | .macintosh => some ⟨Unit, (), singleE ptr0Macintosh ptr1Macintosh⟩
  | .windows_874 => some ⟨Unit, (), singleE ptr0Windows874 ptr1Windows874⟩
  | .windows_1250 => some ⟨Unit, (), singleE ptr0Windows1250 ptr1Windows1250⟩
  | .windows_1251 => some ⟨Unit, (), singleE ptr0Windows1251 ptr1Windows1251⟩
  | .windows_1252 => some ⟨Unit, (), singleE ptr0Windows1252 ptr1Windows1252⟩
  | .windows_1253 => some ⟨Unit, (), singleE ptr0Windows1253 ptr1Windows1253⟩
  | .windows_1254 => some ⟨Unit, (), singleE ptr0Windows1254 ptr1Windows1254⟩
  | .windows_1255 => some ⟨Unit, (), singleE ptr0Windows1255 ptr1Windows1255⟩
  | .windows_1256 => some ⟨Unit, (), singleE ptr0Windows1256 ptr1Windows1256⟩
  | .windows_1257 => some ⟨Unit, (), singleE ptr0Windows1257 ptr1Windows1257⟩
  | .windows_1258 => some ⟨Unit, (), singleE ptr0Windows1258 ptr1Windows1258⟩
  | .x_mac_cyrillic => some ⟨Unit, (), singleE ptr0XMacCyrillic ptr1XMacCyrillic⟩
  | .GBK => some ⟨Unit, (), gbE true⟩
  | .gb18030 => some ⟨Unit, (), gbE false⟩
  | .Big5 => some ⟨Unit, (), big5E⟩
  | .EUC_JP => some ⟨Unit, (), eucJpE⟩
  | .ISO_2022_JP => some ⟨JpE, .ascii, jpE⟩
  | .Shift_JIS => some ⟨Unit, (), sjisE⟩
  | .EUC_KR => some ⟨Unit, (), eucKrE⟩
  | .replacement => none
  | .UTF_16BE => none
  | .UTF_16LE => none
  | .x_user_defined => some ⟨Unit, (), userDefinedE⟩

/-- `bom_sniff` (522-540), the queue a queue of (signed) `char`: `none` = wait, `some none` = no byte order mark. -/
def bomSniff (q : Queue) : Option (Option Enc) :=
  match peek 3 q with
  | none => none
  | some b =>
    let a := fun i => (b[i]?).getD 0
    if a 0 = 0xEF ∧ a 1 = 0xBB ∧ a 2 = 0xBF then some (some .UTF_8)
    else if a 0 = 0xFE ∧ a 1 = 0xFF then some (some .UTF_16BE)
    else if a 0 = 0xFF ∧ a 1 = 0xFE then some (some .UTF_16LE)
    else some none

/-- A coder run over a queue by `process_queue`, the final state of the coder forgotten. -/
def runCoder (c : Coder) (mode : Mode) (fuel : Nat) (q out : Queue) : Ends (Res × Queue × Queue) :=
  match processQueue false c.run mode fuel c.init q out with
  | .stop (r, _, q, out) => .stop (r, q, out)
  | .ub => .ub
  | .more => .more

/-- `decode(in, name, out)` (498-516). -/
def decode (fuel : Nat) (q : Queue) (name : Enc) (out : Queue) : Ends (Res × Queue × Queue) :=
  match bomSniff q with
  | none => .stop (.cont, q, out)
  | some none => runCoder (decoderOf name) .replacement fuel q out
  | some (some e) => runCoder (decoderOf e) .replacement fuel (readN (if e = .UTF_8 then 3 else 2) q).2 out

/-- `encode(in, name, out)` (546-552). -/
def encode (fuel : Nat) (q : Queue) (name : Enc) (out : Queue) : Ends (Res × Queue × Queue) :=
  match encoderOf name with
  | none => .ub
  | some c => runCoder c .html fuel q out

/-- `encode_or_fail(in, c, out)` (569-583); `c` is passed by value, so the encoder of the caller does not change. -/
def encodeOrFail (fuel : Nat) (q : Queue) (c : Coder) (out : Queue) : Ends (Res × Queue × Queue) :=
  match runCoder c .fatal fuel q out with
  | .stop (.error cp, q, out) => .stop (.error cp, q, push out .eoq)
  | .stop (_, q, out) => .stop (.finished, q, push out .eoq)
  | .ub => .ub
  | .more => .more

/-- `get_output_encoding_name` (354-366). -/
def outputEncoding : Enc → Enc
  | .replacement => .UTF_8
  | .UTF_16BE => .UTF_8
  | .UTF_16LE => .UTF_8
  | e => e

end Verif.Model.Legacy
