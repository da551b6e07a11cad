import Verif.Session
import Verif.Codec.Utf8Proofs
import Verif.Codec.WideProofs
import Verif.Gen.Index
import Verif.SingleByte

/-!
# Encodings that are modelled
-/

namespace Reiconv

/-- The `switch` on `conv->iindex` that selects how many bytes of invalid input discard mode skips
(`lib/loop_unicode.h:60-84`). -/
def unitOf (iindex : Nat) : Nat :=
  if iindex = ei_ucs4 ∨ iindex = ei_ucs4be ∨ iindex = ei_ucs4le ∨ iindex = ei_utf32 ∨
      iindex = ei_utf32be ∨ iindex = ei_utf32le ∨ iindex = ei_ucs4internal ∨
      iindex = ei_ucs4swapped then 4
  else if iindex = ei_ucs2 ∨ iindex = ei_ucs2be ∨ iindex = ei_ucs2le ∨ iindex = ei_utf16 ∨
      iindex = ei_utf16be ∨ iindex = ei_utf16le ∨ iindex = ei_ucs2internal ∨
      iindex = ei_ucs2swapped then 2
  else 1

/-- An entry of `all_encodings` (`lib/all_encodings.h`) together with the proof that its functions
satisfy the contracts. `dec` and `enc` are the modelled C functions, `idx` the encoding number, `unit`
the number of bytes skipped in discard mode. -/
structure Entry where
  idx : Nat
  unit : Nat
  unit_eq : unitOf idx = unit
  dec : Decoder
  enc : Encoder
  decOK : DecOK dec unit
  encOK : EncOK enc
  tight : EncTight enc encOK

/-- The items (characters, shift sequences, invalid and incomplete sequences) of an encoding. -/
abbrev Entry.atom (A : Entry) : IState → List Byte → Atom := A.decOK.atom

/-- A descriptor for conversion from `A` to `B` as `reiconv_open_from_index` sets it up
(`lib/iconv.c:89-117`). -/
def Entry.conv (A B : Entry) (discard : Bool) : Conv := ⟨A.dec, B.enc, A.unit, discard⟩

/-- Entry for an encoding with stateless functions. -/
def simpleEntry (idx unit : Nat) (hu : unitOf idx = unit) {D : Decoder} {E : Encoder}
    (d : SimpleDec D unit) (e : SimpleEnc E) : Entry where
  idx := idx
  unit := unit
  unit_eq := hu
  dec := D
  enc := E
  decOK := d.toOK
  encOK := e.toOK
  tight := e.tight

/-- Entry for a single-byte encoding. -/
def sbEntry (e : SB) (h : e.safe = true) (hu : unitOf e.index = 1) : Entry :=
  simpleEntry e.index 1 hu (e.simple h) (e.senc h)

/-- The registered encoding `ascii` (`lib/encodings.h.snippet:60-74`). -/
def ascii_entry : Entry := simpleEntry ei_ascii 1 (by decide) ascii_simple ascii_senc
/-- The registered encoding `iso8859_1` (`lib/encodings.h.snippet:395-407`). -/
def iso8859_1_entry : Entry := simpleEntry ei_iso8859_1 1 (by decide) iso8859_1_simple iso8859_1_senc
/-- The registered encoding `utf8` (`lib/encodings.h.snippet:79-84`). -/
def utf8_entry : Entry := simpleEntry ei_utf8 1 (by decide) utf8_simple utf8_senc
/-- The registered encoding `ucs2be` (`lib/encodings.h.snippet:93-101`). -/
def ucs2be_entry : Entry := simpleEntry ei_ucs2be 2 (by decide) ucs2be_simple ucs2be_senc
/-- The registered encoding `ucs2le` (`lib/encodings.h.snippet:104-109`). -/
def ucs2le_entry : Entry := simpleEntry ei_ucs2le 2 (by decide) ucs2le_simple ucs2le_senc
/-- The registered encoding `ucs2internal` (`lib/encodings.h.snippet:174-176`). -/
def ucs2internal_entry : Entry :=
  simpleEntry ei_ucs2internal 2 (by decide) ucs2internal_simple ucs2internal_senc
/-- The registered encoding `ucs2swapped` (`lib/encodings.h.snippet:178-180`). -/
def ucs2swapped_entry : Entry :=
  simpleEntry ei_ucs2swapped 2 (by decide) ucs2swapped_simple ucs2swapped_senc
/-- The registered encoding `ucs4be` (`lib/encodings.h.snippet:118-122`). -/
def ucs4be_entry : Entry := simpleEntry ei_ucs4be 4 (by decide) ucs4be_simple ucs4be_senc
/-- The registered encoding `ucs4le` (`lib/encodings.h.snippet:125-129`). -/
def ucs4le_entry : Entry := simpleEntry ei_ucs4le 4 (by decide) ucs4le_simple ucs4le_senc
/-- The registered encoding `ucs4internal` (`lib/encodings.h.snippet:182-184`). -/
def ucs4internal_entry : Entry :=
  simpleEntry ei_ucs4internal 4 (by decide) ucs4internal_simple ucs4internal_senc
/-- The registered encoding `ucs4swapped` (`lib/encodings.h.snippet:186-188`). -/
def ucs4swapped_entry : Entry :=
  simpleEntry ei_ucs4swapped 4 (by decide) ucs4swapped_simple ucs4swapped_senc
/-- The registered encoding `utf16be` (`lib/encodings.h.snippet:137-140`). -/
def utf16be_entry : Entry := simpleEntry ei_utf16be 2 (by decide) utf16be_simple utf16be_senc
/-- The registered encoding `utf16le` (`lib/encodings.h.snippet:142-145`). -/
def utf16le_entry : Entry := simpleEntry ei_utf16le 2 (by decide) utf16le_simple utf16le_senc
/-- The registered encoding `utf32be` (`lib/encodings.h.snippet:152-155`). -/
def utf32be_entry : Entry := simpleEntry ei_utf32be 4 (by decide) utf32be_simple utf32be_senc
/-- The registered encoding `utf32le` (`lib/encodings.h.snippet:157-160`). -/
def utf32le_entry : Entry := simpleEntry ei_utf32le 4 (by decide) utf32le_simple utf32le_senc

/-- The registered encoding `ucs2` (`lib/encodings.h.snippet:87-91`). -/
def ucs2_entry : Entry where
  idx := ei_ucs2
  unit := 2
  unit_eq := by decide
  dec := ucs2_dec
  enc := ucs2_enc
  decOK := ucs2_mark.toOK
  encOK := ucs2_senc.toOK
  tight := ucs2_senc.tight

/-- The registered encoding `ucs4` (`lib/encodings.h.snippet:112-116`). -/
def ucs4_entry : Entry where
  idx := ei_ucs4
  unit := 4
  unit_eq := by decide
  dec := ucs4_dec
  enc := ucs4_enc
  decOK := ucs4_mark.toOK
  encOK := ucs4_senc.toOK
  tight := ucs4_senc.tight

/-- The registered encoding `utf16` (`lib/encodings.h.snippet:132-135`). -/
def utf16_entry : Entry where
  idx := ei_utf16
  unit := 2
  unit_eq := by decide
  dec := utf16_dec
  enc := utf16_enc
  decOK := utf16_mark.toOK
  encOK := utf16_benc.toOK
  tight := utf16_benc.tight

/-- The registered encoding `utf32` (`lib/encodings.h.snippet:147-150`). -/
def utf32_entry : Entry where
  idx := ei_utf32
  unit := 4
  unit_eq := by decide
  dec := utf32_dec
  enc := utf32_enc
  decOK := utf32_mark.toOK
  encOK := utf32_benc.toOK
  tight := utf32_benc.tight

/-- A single-byte encoding with its reference tables: the pairs (byte, character) of its file in
`tests/data`, and those of its `.IRREVERSIBLE` file. -/
structure SbRow where
  name : String
  entry : Entry
  table : List (Nat × Nat)
  irr : List (Nat × Nat)

/-- The checks of `Verif/Gen/SbCheck*.lean`. -/
def SbRow.Checked (r : SbRow) : Prop :=
  ∃ e h hu, r.entry = sbEntry e h hu ∧ chkDec e r.table = true ∧ chkInv e r.irr = true

/-- The Unicode encodings and ISO-8859-1. -/
def uniEntries : List Entry :=
  [ascii_entry, utf8_entry, ucs2_entry, ucs2be_entry, ucs2le_entry, ucs4_entry, ucs4be_entry,
    ucs4le_entry, utf16_entry, utf16be_entry, utf16le_entry, utf32_entry, utf32be_entry,
    utf32le_entry, ucs2internal_entry, ucs2swapped_entry, ucs4internal_entry, ucs4swapped_entry,
    iso8859_1_entry]

end Reiconv
