import Verif.Props.Multi
import Verif.Props.RoundTrip
import Verif.Gen.TabEucKr
import Verif.Gen.TabCp949
import Verif.Gen.TabJohab
import Verif.Gen.TabEucJp
import Verif.Gen.TabSjis
import Verif.Gen.TabCp932
import Verif.Gen.TabDecKanji
import Verif.Gen.TabEucCn
import Verif.Gen.TabGbk
import Verif.Gen.TabCp936
import Verif.Gen.TabGb2022
import Verif.Gen.TabBig5
import Verif.Gen.TabCp950
import Verif.Gen.TabBig52003
import Verif.Gen.TabDecHanyu
import Verif.Gen.TabEucTw
import Verif.Gen.TabIr165
import Verif.Gen.TabGb2312
import Verif.Gen.TabKsc5601
import Verif.Gen.TabJisx0208
import Verif.Gen.TabJisx0212

/-!
# C28, C29, C30, C42 for multibyte encodings

`mbRows` lists the encodings with the tables published in `tests/data` (`X.TXT`, `X.IRREVERSIBLE.TXT`).
-/

namespace Reiconv

/-- Pairs (bytes, character) of a data file. -/
abbrev fileRows (ps : List (Nat × Nat × List Tab)) : List (List Byte × Nat) := tableOf (pieceTabs ps)

def euc_kr_row : MbRow := ⟨"EUC-KR", euc_kr_entry, fileRows euc_kr_pieces, euc_kr_irr⟩
def cp949_row : MbRow := ⟨"CP949", cp949_entry, fileRows cp949_pieces, cp949_irr⟩
def johab_row : MbRow := ⟨"JOHAB", johab_entry, fileRows johab_pieces, johab_irr⟩
def euc_jp_row : MbRow := ⟨"EUC-JP", euc_jp_entry, fileRows euc_jp_pieces, euc_jp_irr⟩
def sjis_row : MbRow := ⟨"SHIFT_JIS", sjis_entry, fileRows sjis_pieces, sjis_irr⟩
def cp932_row : MbRow := ⟨"CP932", cp932_entry, fileRows cp932_pieces, cp932_irr⟩
/-- There is no file for CP943; its converter is that of CP932. -/
def cp943_row : MbRow := ⟨"CP943", cp943_entry, fileRows cp932_pieces, cp932_irr⟩
def dec_kanji_row : MbRow := ⟨"DEC-KANJI", dec_kanji_entry, fileRows dec_kanji_pieces, dec_kanji_irr⟩
def euc_cn_row : MbRow := ⟨"EUC-CN", euc_cn_entry, fileRows euc_cn_pieces, euc_cn_irr⟩
def gbk_row : MbRow := ⟨"GBK", ces_gbk_entry, fileRows ces_gbk_pieces, ces_gbk_irr⟩
def cp936_row : MbRow := ⟨"CP936", cp936_entry, fileRows cp936_pieces, cp936_irr⟩
/-- The file lists the characters of the BMP only; the others are given by `gbSup`: the character
`0x10000 + i` has the four bytes number `i`, counted from 90 30 81 30. -/
def gb18030_2022_row : MbRow := ⟨"GB18030:2022", gb18030_2022_entry, gb18030_2022_rows, gb18030_2022_irr⟩

def big5_row : MbRow := ⟨"BIG5", ces_big5_entry, fileRows ces_big5_pieces, ces_big5_irr⟩
def cp950_row : MbRow := ⟨"CP950", cp950_entry, fileRows cp950_pieces, cp950_irr⟩
def big5_2003_row : MbRow := ⟨"BIG5-2003", big5_2003_entry, fileRows big5_2003_pieces, big5_2003_irr⟩
def dec_hanyu_row : MbRow := ⟨"DEC-HANYU", dec_hanyu_entry, fileRows dec_hanyu_pieces, dec_hanyu_irr⟩
def euc_tw_row : MbRow := ⟨"EUC-TW", euc_tw_entry, fileRows euc_tw_pieces, euc_tw_irr⟩

def isoir165_mbrow : MbRow := ⟨"ISO-IR-165", isoir165_entry, fileRows isoir165_pieces, isoir165_irr⟩
/-- There is no file for GB_2312-80: the table consists of the two-byte rows of `EUC-CN.TXT`, each byte less 0x80. -/
def gb2312_mbrow : MbRow := ⟨"GB_2312-80", gb2312_entry, fileRows gb2312_pieces, gb2312_irr⟩
/-- The two-byte rows of `EUC-KR.TXT`, each byte less 0x80. -/
def ksc5601_mbrow : MbRow := ⟨"KS_C_5601-1987", ksc5601_entry, fileRows ksc5601_pieces, ksc5601_irr⟩
/-- The two-byte rows of `EUC-JP.TXT` from A1A1 to F4FE, each byte less 0x80. -/
def jisx0208_mbrow : MbRow := ⟨"JIS_X0208", jisx0208_entry, fileRows jisx0208_pieces, jisx0208_irr⟩
/-- The rows of `EUC-JP.TXT` from 8FA1A1 to 8FF4FE without 8F, each byte less 0x80. -/
def jisx0212_mbrow : MbRow := ⟨"JIS_X0212", jisx0212_entry, fileRows jisx0212_pieces, jisx0212_irr⟩

/-- The multibyte encodings checked against their published tables. -/
def mbRows : List MbRow :=
  [euc_kr_row, cp949_row, johab_row, euc_jp_row, sjis_row, cp932_row, cp943_row, dec_kanji_row, euc_cn_row,
    gbk_row, cp936_row, gb18030_2022_row, big5_row, cp950_row, big5_2003_row, dec_hanyu_row, euc_tw_row,
    isoir165_mbrow, gb2312_mbrow, ksc5601_mbrow, jisx0208_mbrow, jisx0212_mbrow]

theorem mbRows_ok : ∀ r ∈ mbRows, r.OK :=
  all_cons (mb_ok euc_kr_table _ _ _ _ _) <| all_cons (mb_ok cp949_table _ _ _ _ _) <|
  all_cons (mb_ok johab_table _ _ _ _ _) <| all_cons (mb_ok euc_jp_table _ _ _ _ _) <|
  all_cons (mb_ok sjis_table _ _ _ _ _) <| all_cons (mb_ok cp932_table _ _ _ _ _) <|
  all_cons (mb_ok cp932_table _ _ _ _ _) <| all_cons (mb_ok dec_kanji_table _ _ _ _ _) <|
  all_cons (mb_ok euc_cn_table _ _ _ _ _) <| all_cons (mb_ok ces_gbk_table _ _ _ _ _) <|
  all_cons (mb_ok cp936_table _ _ _ _ _) <| all_cons (mb_ok gb18030_2022_table _ _ _ _ _) <|
  all_cons (mb_ok ces_big5_table _ _ _ _ _) <| all_cons (mb_ok cp950_table _ _ _ _ _) <|
  all_cons (mb_ok big5_2003_table _ _ _ _ _) <| all_cons (mb_ok dec_hanyu_table _ _ _ _ _) <|
  all_cons (mb_ok euc_tw_table _ _ _ _ _) <| all_cons (mb_ok isoir165_table _ _ _ _ _) <|
  all_cons (mb_ok gb2312_table _ _ _ _ _) <| all_cons (mb_ok ksc5601_table _ _ _ _ _) <|
  all_cons (mb_ok jisx0208_table _ _ _ _ _) <| all_cons (mb_ok jisx0212_table _ _ _ _ _) all_nil

/-! ## C29 -/

/-- C29 for multibyte encodings: a byte string is a text of the encoding, with the characters `cs`,
exactly if it consists of byte sequences the published table lists with these characters. -/
theorem C29_multibyte : ∀ r ∈ mbRows, ∀ (inp : List Byte) (cs : List Nat),
    r.entry.Text inp cs ↔ Pieces (fun b w => (b, w) ∈ r.table) inp cs :=
  fun r hr => (mbRows_ok r hr).text

/-- C29 for multibyte encodings, the other direction: the text `cs` is written as `out` exactly if `out`
consists of byte sequences listed with these characters, either in the table or in the list of
irreversible pairs, but not in both. -/
theorem C29_multibyte_encode : ∀ r ∈ mbRows, ∀ (cs : List Nat) (out : List Byte),
    r.entry.Encodes cs out ↔ Pieces (fun b w => ((b, w) ∈ r.table ∧ (b, w) ∉ r.irr) ∨
      ((b, w) ∉ r.table ∧ (b, w) ∈ r.irr)) out cs :=
  fun r hr => (mbRows_ok r hr).encodes

/-- C29 in terms of the API: converting a byte string to UCS-4BE gives the characters of the table if it
consists of byte sequences of the table; if it does not, converting it to any encoding without the
discard flag fails with `EILSEQ`. -/
theorem C29_multibyte_convert : ∀ r ∈ mbRows, ∀ (inp : List Byte) (alloc : Nat → List Byte),
    (∀ n, (alloc n).length = n) →
    (∀ cs : List Nat, Pieces (fun b w => (b, w) ∈ r.table) inp cs →
      ∃ x, convert (r.entry.conv ucs4be_entry false) St.init inp true true (fun n => some (alloc n)) = .ok x ∧
        x.ret = .ok () ∧ x.data = some (cs.flatMap b32)) ∧
    ((¬ ∃ cs, Pieces (fun b w => (b, w) ∈ r.table) inp cs) → ∀ B : Entry,
      ∃ s1, resultSize (r.entry.conv B false) St.init inp = .ok (.error .EILSEQ, s1) ∧
        convert (r.entry.conv B false) St.init inp true true (fun n => some (alloc n)) =
          .ok ⟨.error .EILSEQ, s1, none, none⟩) := by
  intro r hr inp alloc hal
  obtain ⟨h1, h2⟩ := decode_api (mbRows_ok r hr).fixed inp alloc hal
  refine ⟨fun cs h => h1 cs ((C29_multibyte r hr inp cs).2 h), fun h => h2 fun ⟨cs, hc⟩ => h ⟨cs, ?_⟩⟩
  exact (C29_multibyte r hr inp cs).1 hc

/-- The numbers of pairs in the tables of `tests/data`. -/
example : ((pieceTabs euc_kr_pieces).map Tab.len).sum = 8355 ∧ ((pieceTabs euc_jp_pieces).map Tab.len).sum = 15017 ∧
    ((pieceTabs cp936_pieces).map Tab.len).sum = 23334 ∧
    ((pieceTabs gb18030_2022_pieces).map Tab.len).sum + linLen gb18030_2022_lin = 63488 := by decide +kernel

/-- Rows of the tables: "가" in EUC-KR, "あ" in SHIFT_JIS. -/
example : ([0xB0, 0xA1], 0xAC00) ∈ euc_kr_row.table ∧ ([0x82, 0xA0], 0x3042) ∈ sjis_row.table := by
  refine ⟨mb_mem (euc_kr_table.mem (by simp) ?_), mb_mem (sjis_table.mem (by simp) ?_)⟩ <;> decide +kernel

/-! ## C42 -/

/-- C42 for these encodings: for texts without characters that are listed in irreversible pairs, the
output of the encoder is exactly the text that decodes to these characters. -/
theorem C42_multibyte : ∀ r ∈ mbRows, ∀ (cs : List Nat) (s : List Byte),
    (∀ w ∈ cs, ∀ b, (b, w) ∉ r.irr) → (r.entry.Encodes cs s ↔ r.entry.Text s cs) :=
  fun r hr _ _ hp => (mbRows_ok r hr).round_trip hp

/-- The rows without irreversible pairs. -/
theorem mbRows_plain : ∀ r ∈ [euc_kr_row, cp949_row, johab_row, sjis_row, dec_kanji_row, euc_cn_row, gbk_row,
    cp936_row, gb18030_2022_row, big5_row, gb2312_mbrow, ksc5601_mbrow, jisx0208_mbrow, jisx0212_mbrow], r ∈ mbRows ∧ r.irr = [] := by
  simp only [List.forall_mem_cons, List.not_mem_nil, false_implies, implies_true, and_true]
  refine ⟨⟨?_, rfl⟩, ⟨?_, rfl⟩, ⟨?_, rfl⟩, ⟨?_, rfl⟩, ⟨?_, rfl⟩, ⟨?_, rfl⟩, ⟨?_, rfl⟩, ⟨?_, rfl⟩, ⟨?_, rfl⟩, ⟨?_, rfl⟩,
    ⟨?_, rfl⟩, ⟨?_, rfl⟩, ⟨?_, rfl⟩, ⟨?_, rfl⟩⟩ <;> simp [mbRows]

/-- C42 for the encodings without irreversible pairs: the texts that the decoder accepts are exactly those
that the encoder writes, and each determines the other. -/
theorem C42_exact : ∀ r ∈ [euc_kr_row, cp949_row, johab_row, sjis_row, dec_kanji_row, euc_cn_row, gbk_row,
    cp936_row, gb18030_2022_row, big5_row, gb2312_mbrow, ksc5601_mbrow, jisx0208_mbrow, jisx0212_mbrow], ∀ (cs : List Nat) (s : List Byte), r.entry.Encodes cs s ↔ r.entry.Text s cs := by
  intro r hr cs s
  obtain ⟨h1, h2⟩ := mbRows_plain r hr
  exact C42_multibyte r h1 cs s fun w _ b => by rw [h2]; simp

/-! ## C28 -/

/-- The encodings that differ from ASCII in the bytes 5C (and 7E), and those without ASCII. -/
def notAsciiMb : List String := ["JOHAB", "SHIFT_JIS",
  "ISO-IR-165", "GB_2312-80", "KS_C_5601-1987", "JIS_X0208", "JIS_X0212"]

/-- C28 for multibyte encodings. -/
theorem C28_multibyte : ∀ r ∈ mbRows, r.name ∉ notAsciiMb → r.entry.AsciiTransparent := by
  have h : ∀ r ∈ mbRows, r.name ∉ notAsciiMb → r.AsciiRows :=
    all_cons (fun _ => mb_ascii euc_kr_ascii) <| all_cons (fun _ => mb_ascii cp949_ascii) <|
    all_cons (fun h => absurd (by decide +kernel) h) <| all_cons (fun _ => mb_ascii euc_jp_ascii) <|
    all_cons (fun h => absurd (by decide +kernel) h) <| all_cons (fun _ => mb_ascii cp932_ascii) <|
    all_cons (fun _ => mb_ascii cp932_ascii) <| all_cons (fun _ => mb_ascii dec_kanji_ascii) <| all_cons (fun _ => mb_ascii euc_cn_ascii) <|
    all_cons (fun _ => mb_ascii ces_gbk_ascii) <| all_cons (fun _ => mb_ascii cp936_ascii) <|
    all_cons (fun _ => mb_ascii gb18030_2022_ascii) <| all_cons (fun _ => mb_ascii ces_big5_ascii) <|
    all_cons (fun _ => mb_ascii cp950_ascii) <| all_cons (fun _ => mb_ascii big5_2003_ascii) <|
    all_cons (fun _ => mb_ascii dec_hanyu_ascii) <| all_cons (fun _ => mb_ascii euc_tw_ascii) <|
    all_cons (fun h => absurd (by decide +kernel) h) <| all_cons (fun h => absurd (by decide +kernel) h) <|
    all_cons (fun h => absurd (by decide +kernel) h) <| all_cons (fun h => absurd (by decide +kernel) h) <|
    all_cons (fun h => absurd (by decide +kernel) h) all_nil
  exact fun r hr hn => (mbRows_ok r hr).ascii (h r hr hn)

example : (mbRows.filter fun r => decide (r.name ∉ notAsciiMb)).length = 15 := by decide +kernel

/-! ## C30 -/

/-- The reversible encodings: the Unicode encodings of `exactUni`, the single-byte encodings and the multibyte
encodings without irreversible pairs. -/
def ReversibleMb (A : Entry) : Prop :=
  Reversible A ∨ ∃ r ∈ mbRows, r.irr = [] ∧ A = r.entry

theorem ReversibleMb.ok {A : Entry} (h : ReversibleMb A) : A.DecRev ∧ A.EncRev ∧ A.FixedOrder := by
  rcases h with h | ⟨r, h1, h2, rfl⟩
  · exact h.ok
  · have := (mbRows_ok r h1).exact h2
    exact ⟨this.decRev, this.encRev, (mbRows_ok r h1).fixed⟩

/-- C30 with the multibyte encodings: see `C30_round_trip_partial`. -/
theorem C30_multibyte_partial (A B : Entry) (hA : ReversibleMb A) (hB : ReversibleMb B)
    (inp room room2 : List Byte) {r r2}
    (hr : iconv (A.conv B false) St.init (some inp) (some ⟨false, [], room⟩) = .ok r)
    (hret : r.ret = .ok 0)
    (hr2 : iconv (A.conv B false) r.st none (some ⟨false, [], room2⟩) = .ok r2)
    (hret2 : r2.ret = .ok 0)
    (htag : ∀ cs, A.Text inp cs → ∀ c ∈ cs, isTag c = false)
    (discard : Bool) (alloc : Nat → List Byte) (hal : ∀ n, (alloc n).length = n) :
    ∃ x, convert (B.conv A discard) St.init (r.buf.out ++ r2.buf.out) true true
        (fun n => some (alloc n)) = .ok x ∧ x.ret = .ok () ∧ x.data = some inp :=
  C30_round_trip_partial A B hA.ok.1 hB.ok.2.1 hB.ok.2.2 inp room room2 hr hret hr2 hret2 htag discard
    alloc hal

/-- The hypotheses are met: "가" from EUC-KR to GB18030. -/
example : ReversibleMb euc_kr_entry ∧ ReversibleMb gb18030_2022_entry := by
  have h := mbRows_plain
  simp only [List.forall_mem_cons] at h
  exact ⟨.inr ⟨euc_kr_row, h.1.1, h.1.2, rfl⟩, .inr ⟨gb18030_2022_row, h.2.2.2.2.2.2.2.2.1.1, h.2.2.2.2.2.2.2.2.1.2, rfl⟩⟩
example : ∃ r r2, iconv (euc_kr_entry.conv gb18030_2022_entry false) St.init (some [0xB0, 0xA1])
    (some ⟨false, [], [0, 0, 0, 0]⟩) = .ok r ∧ r.ret = .ok 0 ∧ r.buf.out = [0x82, 0x37, 0xCF, 0x35] ∧
    iconv (euc_kr_entry.conv gb18030_2022_entry false) r.st none (some ⟨false, [], [0]⟩) = .ok r2 ∧
    r2.ret = .ok 0 := by
  refine ⟨⟨.ok 0, St.init, [], ⟨false, [0x82, 0x37, 0xCF, 0x35], []⟩⟩, ⟨.ok 0, St.init, [], ⟨false, [], [0]⟩⟩, by decide +kernel, rfl, rfl,
    by decide +kernel, rfl⟩
example : ∀ cs, euc_kr_entry.Text [0xB0, 0xA1] cs → ∀ c ∈ cs, isTag c = false := by
  intro cs h
  have h1 : euc_kr_entry.Text [0xB0, 0xA1] [0xAC00] := by
    refine (C29_multibyte euc_kr_row (by simp [mbRows]) _ _).2 ?_
    refine .cons (b := [0xB0, 0xA1]) (inp := []) ?_ .nil
    exact mb_mem (euc_kr_table.mem (by simp) (by decide +kernel))
  obtain ⟨is1, h2⟩ := chars_of_text h rfl
  obtain ⟨is2, h3⟩ := chars_of_text h1 rfl
  obtain ⟨rfl, _⟩ := Chars.det h2 h3
  decide

end Reiconv
