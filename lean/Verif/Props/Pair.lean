import Verif.Codec.PairText
import Verif.Props.MultiRows
import Verif.Props.Shift
import Verif.Gen.TabHk1999
import Verif.Gen.TabHk2001
import Verif.Gen.TabHk2004
import Verif.Gen.TabHk2008
import Verif.Gen.TabEucJx
import Verif.Gen.TabSjx

/-!
# C28, C29, C30, C42, C43 for encodings where one byte sequence can stand for two characters

`pairRows` lists the encodings with the tables published in `tests/data`. The rows of these files with two
characters are the list `pairs`.
-/

namespace Reiconv

/-- An encoding with its published table, list of irreversible pairs, and the byte sequences for two characters. -/
structure PairRow where
  name : String
  entry : Entry
  table : List (List Byte × Nat)
  irr : List (List Byte × Nat)
  pairs : List (List Byte × Nat × Nat)

/-- What is proved of each row. -/
structure PairRow.OK (r : PairRow) : Prop where
  fixed : r.entry.FixedOrder
  text : ∀ inp cs, r.entry.Text inp cs ↔ Pieces2 (fun b w => (b, w) ∈ r.table) r.pairs inp cs
  encodes : ∀ cs out, r.entry.Encodes cs out ↔ Greedy (fun b w => ((b, w) ∈ r.table ∧ (b, w) ∉ r.irr) ∨
    ((b, w) ∉ r.table ∧ (b, w) ∈ r.irr)) r.pairs cs out
  small : ∀ p ∈ r.table, p.2 < 16777216
  irr : ∀ p ∈ r.irr, p ∈ r.table

theorem pair_ok {m : M MbRet} {w : Nat → W} {T irr : List (List Byte × Nat)} {idx : Nat} {hu : unitOf idx = 1} {body : M SItem}
    {hd : M.Good PairItemOK 1 body} {I : Nat → Prop} {comp : Nat → Nat → Option (List Nat)} {last : Nat → List Nat}
    {base : Nat → Nat → BW} {he : PairGood I comp last base} {hold : Nat → Nat} {C : List (List Byte × Nat × Nat)}
    (ht : TableOK m w T irr) (h : PairRel body comp last base m w hold C)
    (ha : ∀ p ∈ irr, p ∈ T) (name : String) :
    PairRow.OK ⟨name, pairEntry idx hu hd he, T, irr, C⟩ where
  fixed := st_fixed _ _
  text := pair_text h ht
  encodes := by
    intro cs out
    refine Iff.trans (pair_encodes h cs out) ?_
    have : (fun (b : List Byte) c => (w c).res = some b) =
        fun b w => ((b, w) ∈ T ∧ (b, w) ∉ irr) ∨ ((b, w) ∉ T ∧ (b, w) ∈ irr) := by
      funext b c
      exact propext (ht.enc_iff c b)
    rw [this]
  small := fun p hp => ht.small p.1 p.2 hp
  irr := ha

def hk1999_prow : PairRow := ⟨"BIG5-HKSCS:1999", big5hkscs1999_entry, fileRows hk1999_pieces, hk1999_irr, hkPairs⟩
def hk2001_prow : PairRow := ⟨"BIG5-HKSCS:2001", big5hkscs2001_entry, fileRows hk2001_pieces, hk2001_irr, hkPairs⟩
def hk2004_prow : PairRow := ⟨"BIG5-HKSCS:2004", big5hkscs2004_entry, fileRows hk2004_pieces, hk2004_irr, hkPairs⟩
def hk2008_prow : PairRow := ⟨"BIG5-HKSCS:2008", big5hkscs2008_entry, fileRows hk2008_pieces, hk2008_irr, hkPairs⟩

def euc_jx_prow : PairRow := ⟨"EUC-JISX0213", euc_jisx0213_entry, fileRows euc_jx_pieces, [], eucJxPairs⟩
def sjx_prow : PairRow := ⟨"SHIFT_JISX0213", shift_jisx0213_entry, fileRows sjx_pieces, [], sjxPairs⟩

/-- The encodings with byte sequences for two characters. -/
def pairRows : List PairRow := [hk1999_prow, hk2001_prow, hk2004_prow, hk2008_prow, euc_jx_prow, sjx_prow]

theorem TableOK.irr_mem {m : M MbRet} {w : Nat → W} {T irr : List (List Byte × Nat)} (h : TableOK m w T irr)
    (hi : ∀ p ∈ irr, p.1 ≠ [] ∧ m.val p.1 = .char p.2 p.1.length) : ∀ p ∈ irr, p ∈ T :=
  fun p hp => h.mem (hi p hp).1 (hi p hp).2

theorem hk1999_irr_dec : ∀ p ∈ hk1999_irr, p.1 ≠ [] ∧ hk1999_mbtowc.val p.1 = .char p.2 p.1.length := by decide +kernel
theorem hk2001_irr_dec : ∀ p ∈ hk2001_irr, p.1 ≠ [] ∧ hk2001_mbtowc.val p.1 = .char p.2 p.1.length := by decide +kernel
theorem hk2004_irr_dec : ∀ p ∈ hk2004_irr, p.1 ≠ [] ∧ hk2004_mbtowc.val p.1 = .char p.2 p.1.length := by decide +kernel
theorem hk2008_irr_dec : ∀ p ∈ hk2008_irr, p.1 ≠ [] ∧ hk2008_mbtowc.val p.1 = .char p.2 p.1.length := by decide +kernel

theorem euc_jx_irr_nil : euc_jx_irr = [] := by decide +kernel
theorem sjx_irr_nil : sjx_irr = [] := by decide +kernel
theorem euc_jx_ok : TableOK euc_jx_mbtowc euc_jx_wctomb (fileRows euc_jx_pieces) [] := euc_jx_irr_nil ▸ euc_jx_table
theorem sjx_ok : TableOK sjx_mbtowc sjx_wctomb (fileRows sjx_pieces) [] := sjx_irr_nil ▸ sjx_table

theorem pairRows_ok : ∀ r ∈ pairRows, r.OK :=
  all_cons (pair_ok hk1999_table (hk_rel hk1999_two hk1999_dgood hk1999_pairs) (hk1999_table.irr_mem hk1999_irr_dec) _) <|
  all_cons (pair_ok hk2001_table (hk_rel hk2001_two hk2001_dgood hk2001_pairs) (hk2001_table.irr_mem hk2001_irr_dec) _) <|
  all_cons (pair_ok hk2004_table (hk_rel hk2004_two hk2004_dgood hk2004_pairs) (hk2004_table.irr_mem hk2004_irr_dec) _) <|
  all_cons (pair_ok hk2008_table (hk_rel hk2008_two hk2008_dgood hk2008_pairs) (hk2008_table.irr_mem hk2008_irr_dec) _) <|
  all_cons (pair_ok euc_jx_ok (euc_jx_rel euc_jx_ok) (by simp) _) <|
  all_cons (pair_ok sjx_ok (sjx_rel sjx_ok) (by simp) _) all_nil

/-! ## C29 -/

/-- C29: a byte string is a text of the encoding, with the characters `cs`, exactly if it consists of byte
sequences the published table lists with one or two characters, and `cs` are these characters. -/
theorem C29_pairs : ∀ r ∈ pairRows, ∀ (inp : List Byte) (cs : List Nat),
    r.entry.Text inp cs ↔ Pieces2 (fun b w => (b, w) ∈ r.table) r.pairs inp cs :=
  fun r hr => (pairRows_ok r hr).text

/-- C29, the other direction: the text is written character by character with byte sequences listed in the
table or as irreversible, but not both; two characters listed together are always written together. -/
theorem C29_pairs_encode : ∀ r ∈ pairRows, ∀ (cs : List Nat) (out : List Byte),
    r.entry.Encodes cs out ↔ Greedy (fun b w => ((b, w) ∈ r.table ∧ (b, w) ∉ r.irr) ∨
      ((b, w) ∉ r.table ∧ (b, w) ∈ r.irr)) r.pairs cs out :=
  fun r hr => (pairRows_ok r hr).encodes

/-- C29 in terms of the API, see `C29_multibyte_convert`. -/
theorem C29_pairs_convert : ∀ r ∈ pairRows, ∀ (inp : List Byte) (alloc : Nat → List Byte),
    (∀ n, (alloc n).length = n) →
    (∀ cs : List Nat, Pieces2 (fun b w => (b, w) ∈ r.table) r.pairs inp cs →
      ∃ x, convert (r.entry.conv ucs4be_entry false) St.init inp true true (fun n => some (alloc n)) = .ok x ∧
        x.ret = .ok () ∧ x.data = some (cs.flatMap b32)) ∧
    ((¬ ∃ cs, Pieces2 (fun b w => (b, w) ∈ r.table) r.pairs inp cs) → ∀ B : Entry,
      ∃ s1, resultSize (r.entry.conv B false) St.init inp = .ok (.error .EILSEQ, s1) ∧
        convert (r.entry.conv B false) St.init inp true true (fun n => some (alloc n)) =
          .ok ⟨.error .EILSEQ, s1, none, none⟩) := by
  intro r hr inp alloc hal
  obtain ⟨h1, h2⟩ := decode_api (pairRows_ok r hr).fixed inp alloc hal
  refine ⟨fun cs h => h1 cs ((C29_pairs r hr inp cs).2 h), fun h => h2 fun ⟨cs, hc⟩ => h ⟨cs, ?_⟩⟩
  exact (C29_pairs r hr inp cs).1 hc

/-- "Ê̄Ê" in BIG5-HKSCS: the first two characters are 88 62, the last one is 88 66 and is written by the
reset at the end only. -/
theorem hk_example : big5hkscs2008_entry.Encodes [0xca, 0x304, 0xca] [0x88, 0x62, 0x88, 0x66] :=
  ⟨_, _, show _ = some ([0x88, 0x62], 0x66) by decide +kernel, by decide +kernel⟩
example : convert (utf8_entry.conv big5hkscs2008_entry false) St.init [0xc3, 0x8a, 0xcc, 0x84, 0xc3, 0x8a] true true
    (fun n => some (List.replicate n 0)) = .ok ⟨.ok (), St.init, some 4, some [0x88, 0x62, 0x88, 0x66]⟩ ∧
    convert (big5hkscs2008_entry.conv utf8_entry false) St.init [0x88, 0x62, 0x88, 0x66] true true
    (fun n => some (List.replicate n 0)) = .ok ⟨.ok (), St.init, some 6, some [0xc3, 0x8a, 0xcc, 0x84, 0xc3, 0x8a]⟩ := by
  decide +kernel

/-! ## C42 -/

/-- C42: every text that can be written comes back. -/
theorem C42_pairs : ∀ r ∈ pairRows, ∀ (cs : List Nat) (out : List Byte), r.entry.Encodes cs out → r.entry.Text out cs := by
  intro r hr cs out h
  refine (C29_pairs r hr out cs).2 (Greedy.pieces ((C29_pairs_encode r hr cs out).1 h) fun b w hw hb => ?_)
  rcases hb with hb | hb
  · exact hb.1
  · exact (pairRows_ok r hr).irr _ hb.2

example : big5hkscs2008_entry.Text [0x88, 0x62, 0x88, 0x66] [0xca, 0x304, 0xca] :=
  C42_pairs hk2008_prow (by simp [pairRows]) _ _ hk_example

/-- "か゚か" in SHIFT_JISX0213: the first two characters are 82 F5, the last one is written by the reset. -/
theorem jx_example : shift_jisx0213_entry.Encodes [0x304b, 0x309a, 0x304b] [0x82, 0xf5, 0x82, 0xa9] :=
  ⟨_, _, show _ = some ([0x82, 0xf5], 0x82a9) by decide +kernel, by decide +kernel⟩
example : shift_jisx0213_entry.Text [0x82, 0xf5, 0x82, 0xa9] [0x304b, 0x309a, 0x304b] :=
  C42_pairs sjx_prow (by simp [pairRows]) _ _ jx_example

/-! ## C43 -/

/-- C43: outputs of several conversions, one after the other, are the text of the inputs one after the other,
although a character may have been held back at the end of each. -/
theorem C43_pairs_concat : ∀ r ∈ pairRows, ∀ (l : List (List Nat × List Byte)),
    (∀ x ∈ l, r.entry.Encodes x.1 x.2) →
    r.entry.Text (l.map (·.2)).flatten (l.map (·.1)).flatten := by
  intro r hr l h
  rw [C29_pairs r hr]
  induction l with
  | nil => exact .nil
  | cons x l ih =>
    simp only [List.forall_mem_cons] at h
    simp only [List.map_cons, List.flatten_cons]
    exact ((C29_pairs r hr _ _).1 (C42_pairs r hr _ _ h.1)).append (ih h.2)

/-! ## C28 -/

theorem Greedy.append {R : List Byte → Nat → Prop} {C : List (List Byte × Nat × Nat)} {cs ds : List Nat} {o o2 : List Byte}
    (h : Greedy R C cs o) (h2 : Greedy R C ds o2) (hn : ∀ d rest, ds = d :: rest → ∀ b w, (b, w, d) ∉ C) :
    Greedy R C (cs ++ ds) (o ++ o2) := by
  induction h with
  | nil => exact h2
  | @one b w out cs h1 h3 _ ih =>
    rw [List.append_assoc]
    refine .one h1 ?_ ih
    intro b' w2 rest e
    cases cs with
    | nil => exact hn w2 rest e b' w
    | cons c cs =>
      cases e
      exact h3 b' w2 cs rfl
  | two h1 _ ih => rw [List.append_assoc]; exact .two h1 ih

/-- The pairs consist of characters that are not ASCII. -/
theorem pairRows_high : ∀ r ∈ pairRows, ∀ p ∈ r.pairs, 128 ≤ p.2.1 ∧ 128 ≤ p.2.2 := by
  have h : ∀ p ∈ hkPairs, 128 ≤ p.2.1 ∧ 128 ≤ p.2.2 := by decide
  have h2 : ∀ p ∈ eucJxPairs, 128 ≤ p.2.1 ∧ 128 ≤ p.2.2 := by decide
  have h3 : ∀ p ∈ sjxPairs, 128 ≤ p.2.1 ∧ 128 ≤ p.2.2 := by decide
  exact all_cons h <| all_cons h <| all_cons h <| all_cons h <| all_cons h2 <| all_cons h3 all_nil

theorem prow_ascii {name : String} {A : Entry} {T irr : List (List Byte × Nat)} {C : List (List Byte × Nat × Nat)}
    (h : ∀ p ∈ asciiPairs, p ∈ T ∧ p ∉ irr) : ∀ p ∈ asciiPairs, p ∈ (PairRow.mk name A T irr C).table ∧ p ∉ (PairRow.mk name A T irr C).irr := h

theorem pairRows_ascii : ∀ r ∈ pairRows, r.name ≠ "SHIFT_JISX0213" → ∀ p ∈ asciiPairs, p ∈ r.table ∧ p ∉ r.irr :=
  all_cons (fun _ => prow_ascii hk1999_ascii) <| all_cons (fun _ => prow_ascii hk2001_ascii) <|
  all_cons (fun _ => prow_ascii hk2004_ascii) <| all_cons (fun _ => prow_ascii hk2008_ascii) <|
  all_cons (fun _ => prow_ascii (euc_jx_irr_nil ▸ euc_jx_ascii)) <|
  all_cons (fun h => absurd rfl h) all_nil

/-- C28 for these encodings. -/
theorem C28_pairs : ∀ r ∈ pairRows, r.name ≠ "SHIFT_JISX0213" → r.entry.AsciiTransparent := by
  intro r hr hname asc hasc
  have hp := pairRows_high r hr
  have h2 : ∀ b : Byte, b.toNat < 128 → ([b], b.toNat) ∈ r.table ∧ ([b], b.toNat) ∉ r.irr := by
    intro b hb
    apply pairRows_ascii r hr hname
    unfold asciiPairs
    rw [List.mem_map]
    exact ⟨b.toNat, List.mem_range.2 hb, by simp [u8]⟩
  have h4 : Pieces2 (fun b w => (b, w) ∈ r.table) r.pairs asc (asc.map UInt8.toNat) := by
    induction asc with
    | nil => exact .nil
    | cons b bs ih =>
      simp only [List.mem_cons, forall_eq_or_imp] at hasc
      exact .one (b := [b]) (h2 _ hasc.1).1 (ih hasc.2)
  have h5 : ∀ cs out, Greedy (fun b w => ((b, w) ∈ r.table ∧ (b, w) ∉ r.irr) ∨ ((b, w) ∉ r.table ∧ (b, w) ∈ r.irr)) r.pairs cs out →
      Greedy (fun b w => ((b, w) ∈ r.table ∧ (b, w) ∉ r.irr) ∨ ((b, w) ∉ r.table ∧ (b, w) ∈ r.irr)) r.pairs
        (asc.map UInt8.toNat ++ cs) (asc ++ out) := by
    intro cs out h
    clear h4
    induction asc with
    | nil => exact h
    | cons b bs ih =>
      simp only [List.mem_cons, forall_eq_or_imp] at hasc
      refine .one (b := [b]) (.inl (h2 _ hasc.1)) ?_ (ih hasc.2)
      intro b' w2 rest _ hm
      have := (hp _ hm).1
      simp only at this
      omega
  have h6 := h5 [] [] .nil
  rw [List.append_nil, List.append_nil] at h6
  simp only [C29_pairs r hr, C29_pairs_encode r hr]
  refine ⟨fun inp cs hh => ⟨hh.append h4, h4.append hh⟩, fun cs out hh => ⟨hh.append h6 ?_, h5 cs out hh⟩⟩
  intro d rest e b w hm
  have h7 := (hp _ hm).2
  cases asc with
  | nil => cases e
  | cons x asc =>
    simp only [List.map_cons, List.cons.injEq] at e
    simp only [List.mem_cons, forall_eq_or_imp] at hasc
    simp only at h7
    omega

theorem Entry.Text.det {A : Entry} {inp : List Byte} {cs ds : List Nat} (h : A.Text inp cs) (h2 : A.Text inp ds) : cs = ds := by
  obtain ⟨a, is, h, rfl⟩ := h
  obtain ⟨b, is2, h2, rfl⟩ := h2
  obtain ⟨rfl, rfl⟩ := h.det h2
  rfl

theorem prow_text {name : String} {A : Entry} {T irr : List (List Byte × Nat)} {C : List (List Byte × Nat × Nat)} {b : List Byte} {c : Nat}
    (hr : (PairRow.mk name A T irr C).OK) (h : (b, c) ∈ T) : A.Text b [c] := by
  have := (hr.text (b ++ []) [c]).2 (.one h .nil)
  rwa [List.append_nil] at this

/-- SHIFT_JISX0213 is not an extension of ASCII: the byte 5C is U+00A5. -/
theorem C28_shift_jisx0213 : ¬ shift_jisx0213_entry.AsciiTransparent := by
  intro h
  have h0 : shift_jisx0213_entry.Text [] [] := (C29_pairs sjx_prow (by simp [pairRows]) _ _).2 .nil
  have h1 := (((h [0x5c] (by decide)).1 [] [] h0).1)
  have h2 : shift_jisx0213_entry.Text [0x5c] [0xa5] :=
    prow_text (pairRows_ok sjx_prow (by simp [pairRows]))
      (sjx_ok.mem (by simp) (show sjx_mbtowc.val [0x5c] = .char 0xa5 1 by decide +kernel))
  have := h1.det h2
  simp at this

/-! ## C30 -/

/-- C30 with one of these encodings in the middle: a text in a reversible encoding `A` that can be converted
comes back. -/
theorem C30_pairs_partial (A : Entry) (hA : ReversibleMb A) (r : PairRow) (hr : r ∈ pairRows)
    (inp room room2 : List Byte) {x x2}
    (h1 : iconv (A.conv r.entry false) St.init (some inp) (some ⟨false, [], room⟩) = .ok x)
    (hret : x.ret = .ok 0)
    (h2 : iconv (A.conv r.entry false) x.st none (some ⟨false, [], room2⟩) = .ok x2)
    (hret2 : x2.ret = .ok 0)
    (htag : ∀ cs, A.Text inp cs → ∀ c ∈ cs, isTag c = false)
    (discard : Bool) (alloc : Nat → List Byte) (hal : ∀ n, (alloc n).length = n) :
    ∃ y, convert (r.entry.conv A discard) St.init (x.buf.out ++ x2.buf.out) true true
        (fun n => some (alloc n)) = .ok y ∧ y.ret = .ok () ∧ y.data = some inp :=
  C30_round_trip_partial A r.entry hA.ok.1 (fun cs out _ h => C42_pairs r hr cs out h) (pairRows_ok r hr).fixed inp room room2 h1 hret h2
    hret2 htag discard alloc hal

/-- C30 fails with EUC-JISX0213 at the ends: AB E0 AB E4 is a text of two byte sequences for one character each, and these
two characters are written together, as AB E6. -/
theorem C30_jisx0213_changed :
    convert (euc_jisx0213_entry.conv utf8_entry false) St.init [0xab, 0xe0, 0xab, 0xe4] true true
      (fun n => some (List.replicate n 0)) = .ok ⟨.ok (), St.init, some 4, some [0xcb, 0xa5, 0xcb, 0xa9]⟩ ∧
    convert (utf8_entry.conv euc_jisx0213_entry false) St.init [0xcb, 0xa5, 0xcb, 0xa9] true true
      (fun n => some (List.replicate n 0)) = .ok ⟨.ok (), St.init, some 2, some [0xab, 0xe6]⟩ := by
  decide +kernel

/-- The hypotheses are met: "Ê" from UTF-8 to BIG5-HKSCS:2008 is written by the reset. -/
example : ∃ x x2, iconv (utf8_entry.conv big5hkscs2008_entry false) St.init (some [0xc3, 0x8a]) (some ⟨false, [], [0]⟩) = .ok x ∧
    x.ret = .ok 0 ∧ x.buf.out = [] ∧
    iconv (utf8_entry.conv big5hkscs2008_entry false) x.st none (some ⟨false, [], [0, 0]⟩) = .ok x2 ∧
    x2.ret = .ok 0 ∧ x2.buf.out = [0x88, 0x66] := by
  refine ⟨⟨.ok 0, ⟨⟨0, 0⟩, 0x66⟩, [], ⟨false, [], [0]⟩⟩, ⟨.ok 0, St.init, [], ⟨false, [0x88, 0x66], []⟩⟩, by decide +kernel, rfl, rfl,
    by decide +kernel, rfl, rfl⟩

end Reiconv
