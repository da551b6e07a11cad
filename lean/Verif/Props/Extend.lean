import Verif.Props.Hub
import Verif.Props.Join
import Verif.Props.MarkRead
import Verif.Props.Iso2022
import Verif.Props.Ascii
import Verif.Props.CompRead
import Verif.Props.Gb18030
import Verif.Props.Pair
import Verif.Props.MultiRows
import Verif.Props.ExtendProbe
import Verif.Props.Pivot

/-!
# Encodings that extend others

A user who does not know whether a file is ASCII or UTF-8, GBK or GB18030, ISO-2022-JP or ISO-2022-JP-2, names the larger
encoding. Here: which encodings read all texts of another one, and with the same characters.
-/

namespace Reiconv

/-- The pairs of an encoding and another one that extends it, other than ASCII. -/
def extensions : List (Nat × Nat) :=
  [(ei_ucs2, ei_utf16), (ei_ucs2be, ei_utf16be), (ei_ucs2be, ei_ucs2swapped), (ei_ucs2le, ei_utf16le),
   (ei_ucs2le, ei_ucs2internal), (ei_ucs4be, ei_ucs4swapped), (ei_ucs4le, ei_ucs4internal), (ei_utf32, ei_ucs4),
   (ei_utf32be, ei_ucs4be), (ei_utf32be, ei_ucs4swapped), (ei_utf32le, ei_ucs4le), (ei_utf32le, ei_ucs4internal),
   (ei_ucs2internal, ei_ucs2le), (ei_ucs2internal, ei_utf16le), (ei_ucs2swapped, ei_ucs2be),
   (ei_ucs2swapped, ei_utf16be), (ei_ucs4internal, ei_ucs4le), (ei_ucs4swapped, ei_ucs4be), (ei_cp932, ei_cp943),
   (ei_iso2022_jp, ei_iso2022_jp1), (ei_iso2022_jp, ei_iso2022_jp2), (ei_iso2022_jp, ei_iso2022_jp3),
   (ei_iso2022_jp1, ei_iso2022_jp2), (ei_ces_gbk, ei_gb18030_2005), (ei_ces_gbk, ei_cp936),
   (ei_ces_gbk, ei_gb18030_2022), (ei_iso2022_cn, ei_iso2022_cn_ext), (ei_big5hkscs1999, ei_big5hkscs2001),
   (ei_big5hkscs1999, ei_big5hkscs2004), (ei_big5hkscs1999, ei_big5hkscs2008), (ei_big5hkscs2001, ei_big5hkscs2004),
   (ei_big5hkscs2001, ei_big5hkscs2008), (ei_big5hkscs2004, ei_big5hkscs2008), (ei_dec_kanji, ei_euc_jp),
   (ei_tis620, ei_iso8859_11), (ei_tis620, ei_cp874), (ei_tis620, ei_cp1161), (ei_tis620, ei_cp1162),
   (ei_cp874, ei_cp1162), (ei_iso646_jp, ei_sjis), (ei_iso646_jp, ei_jisx0201), (ei_iso646_jp, ei_shift_jisx0213),
   (ei_jisx0201, ei_sjis), (ei_jisx0201, ei_shift_jisx0213), (ei_cp943, ei_cp932), (ei_ebcdic424, ei_ebcdic12712),
   (ei_ebcdic875, ei_ebcdic4971)]

/-- Encodings that are not compatible with ASCII in the sense of C28 but read ASCII texts: in CP1258 ASCII letters are
combined with accents that follow, and ARMSCII-8 writes ASCII parentheses as other bytes. -/
def asciiReadersIdx : List Nat := [ei_cp1258, ei_armscii_8]

/-- `B` extends `A`: whatever is a text of `A` is a text of `B`, with the same characters. -/
def Entry.Extends (B A : Entry) : Prop := ∀ (inp : List Byte) (cs : List Nat), A.Text inp cs → B.Text inp cs

namespace Ext

theorem rfl' (A : Entry) : A.Extends A := fun _ _ h => h

theorem trans' {A B C : Entry} (h : C.Extends B) (h' : B.Extends A) : C.Extends A := fun inp cs hh => h _ _ (h' inp cs hh)

/-! ## Programs -/

/-- `m'` gives the characters that `m` gives. -/
def Le (m m' : M MbRet) : Prop :=
  ∀ (s : List Byte) (wc n : Nat), m.run s = .ok (some (.char wc n)) → m'.run s = .ok (some (.char wc n))

theorem Le.rfl {m : M MbRet} : Le m m := fun _ _ _ h => h

theorem Le.ilseq {k : Nat} {m : M MbRet} : Le (.ret (.ilseq k)) m := by
  intro s wc n h
  simp [M.run] at h

theorem Le.byte {i : Nat} {f g : Nat → M MbRet} (h : ∀ c, Le (f c) (g c)) : Le (.byte i f) (.byte i g) := by
  intro s wc n hr
  simp only [M.run] at hr ⊢
  cases hs : s[i]? with
  | none => rw [hs] at hr; exact hr
  | some b => rw [hs] at hr; exact h _ s wc n hr

theorem Le.need {k : Nat} {m m' : M MbRet} (h : Le m m') : Le (.need k m) (.need k m') := by
  intro s wc n hr
  simp only [M.run] at hr ⊢
  split at hr
  · next hk => rw [if_pos hk]; exact h s wc n hr
  · simp at hr

theorem Le.drop {k : Nat} {m m' : M MbRet} (h : Le m m') : Le (.need k m) m' := by
  intro s wc n hr
  simp only [M.run] at hr
  split at hr
  · exact h s wc n hr
  · simp at hr

theorem Le.andThen {m : M MbRet} {f g : MbRet → M MbRet} (h : ∀ r, Le (f r) (g r)) : Le (m.andThen f) (m.andThen g) := by
  intro s wc n hr
  rw [M.run_andThen] at hr ⊢
  split at hr
  · exact h _ s wc n hr
  all_goals simp at hr

theorem Le.on {m : M MbRet} {l : List Nat} {f g : MbRet → M MbRet} (h : ∀ r, Le (f r) (g r)) : Le (m.on l f) (m.on l g) := by
  unfold M.on
  split
  · exact h _
  · exact h _
  all_goals exact .rfl

theorem Le.orElse {m m' k : M MbRet} (h : Le m m') :
    Le m (m'.andThen fun ret => if ret.code ≠ RET_ILSEQ then .ret ret else k) := by
  intro s wc n hr
  rw [M.run_andThen, h s wc n hr]
  have : (MbRet.char wc n).code ≠ RET_ILSEQ := by
    simp only [MbRet.code, RET_ILSEQ, RET_SHIFT_ILSEQ]; omega
  simp only [this, ne_eq, not_false_eq_true, if_true, M.run]

theorem Le.ite {c : Prop} [Decidable c] {a b a' b' : M MbRet} (h : c → Le a a') (h' : ¬ c → Le b b') :
    Le (if c then a else b) (if c then a' else b') := by
  split
  · next hc => exact h hc
  · next hc => exact h' hc

theorem le_cp936 : Le ces_gbk_mbtowc cp936_mbtowc := .orElse .rfl

theorem le_gb2005 : Le ces_gbk_mbtowc gb18030_2005_mbtowc := by
  refine .orElse (.byte fun c => .ite (fun _ => .rfl) fun _ => ?_)
  split
  · exact .drop (.orElse .rfl)
  · exact .ilseq

theorem le_gb2022 : Le ces_gbk_mbtowc gb18030_2022_mbtowc := by
  refine .orElse (.byte fun c => .ite (fun _ => .rfl) fun _ => ?_)
  split
  · exact .drop (.orElse .rfl)
  · exact .ilseq

theorem le_dec_kanji : Le dec_kanji_mbtowc euc_jp_mbtowc := by
  refine .byte fun c => .ite (fun _ => .rfl) fun _ => ?_
  split
  · next h =>
    rw [if_pos ⟨h.1, by omega⟩, if_pos h.2]
    exact .rfl
  · exact .ilseq

theorem le_hkExt (l l' : List (M MbRet)) : Le (hkExt l) (hkExt (l ++ l')) := by
  induction l with
  | nil => exact .ilseq
  | cons m l ih => exact .andThen fun r => .ite (fun _ => .rfl) fun _ => ih

theorem le_hk (l l' : List (M MbRet)) : Le (hk_mbtowc l) (hk_mbtowc (l ++ l')) := by
  have h := le_hkExt l l'
  refine .byte fun c => .ite (fun _ => .rfl) fun _ => .ite (fun _ => .need (.byte fun c2 => .ite (fun _ => .ite (fun _ => ?_)
    fun _ => h) fun _ => h)) fun _ => h
  exact .on fun r => .ite (fun _ => .rfl) fun _ => h

theorem table_nonempty {m : M MbRet} {w : Nat → W} {T irr : List (List Byte × Nat)} (h : TableOK m w T irr)
    (hg : M.Good M.RetOK 1 m) {b : List Byte} {wc : Nat} (ht : (b, wc) ∈ T) : b ≠ [] := by
  rintro rfl
  have := (h.dec_iff [0] wc 0 (by simp)).2 ⟨by simp, by simpa using ht⟩
  exact absurd (M.val_len hg (by simp) this).1 (by omega)

theorem table_sub {m m' : M MbRet} {w w' : Nat → W} {T irr T' irr' : List (List Byte × Nat)}
    (h : TableOK m w T irr) (hg : M.Good M.RetOK 1 m) (h' : TableOK m' w' T' irr') (hl : Le m m') {b : List Byte} {wc : Nat}
    (ht : (b, wc) ∈ T) : (b, wc) ∈ T' := by
  have hb := table_nonempty h hg ht
  have hv := (h.dec_iff b wc b.length hb).2 ⟨Nat.le_refl _, by rwa [List.take_length]⟩
  exact h'.mem hb (M.val_of_run (hl _ _ _ (M.val_char hv)))

/-! ## Texts that consist of listed byte sequences -/

theorem of_pieces {A B : Entry} {R S : List Byte → Nat → Prop} (hA : ∀ inp cs, A.Text inp cs ↔ Pieces R inp cs)
    (hB : ∀ inp cs, B.Text inp cs ↔ Pieces S inp cs) (h : ∀ b w, R b w → S b w) : B.Extends A :=
  fun inp cs ht => (hB inp cs).2 (((hA inp cs).1 ht).imp fun b w _ => h b w)

theorem of_pieces2 {A B : Entry} {R S : List Byte → Nat → Prop} {C : List (List Byte × Nat × Nat)}
    (hA : ∀ inp cs, A.Text inp cs ↔ Pieces2 R C inp cs) (hB : ∀ inp cs, B.Text inp cs ↔ Pieces2 S C inp cs)
    (h : ∀ b w, R b w → S b w) : B.Extends A := by
  intro inp cs ht
  rw [hA] at ht
  rw [hB]
  induction ht with
  | nil => exact .nil
  | one h1 _ ih => exact .one (h _ _ h1) ih
  | two h1 _ ih => exact .two h1 ih

theorem of_single {A B : Entry} {R S : Byte → Nat → Prop} (hA : ∀ inp cs, A.Text inp cs ↔ AllPairs R inp cs)
    (hB : ∀ inp cs, B.Text inp cs ↔ AllPairs S inp cs) (h : ∀ b w, R b w → S b w) : B.Extends A :=
  fun inp cs ht => (hB inp cs).2 (((hA inp cs).1 ht).imp h)

theorem single_pieces {A B : Entry} {R : Byte → Nat → Prop} {S : List Byte → Nat → Prop}
    (hA : ∀ inp cs, A.Text inp cs ↔ AllPairs R inp cs) (hB : ∀ inp cs, B.Text inp cs ↔ Pieces S inp cs)
    (h : ∀ b w, R b w → S [b] w) : B.Extends A := by
  intro inp cs ht
  rw [hA] at ht
  rw [hB]
  induction ht with
  | nil => exact .nil
  | cons h1 _ ih => exact .cons (h _ _ h1) ih

theorem single_pieces2 {A B : Entry} {R : Byte → Nat → Prop} {S : List Byte → Nat → Prop} {C : List (List Byte × Nat × Nat)}
    (hA : ∀ inp cs, A.Text inp cs ↔ AllPairs R inp cs) (hB : ∀ inp cs, B.Text inp cs ↔ Pieces2 S C inp cs)
    (h : ∀ b w, R b w → S [b] w) : B.Extends A := by
  intro inp cs ht
  rw [hA] at ht
  rw [hB]
  induction ht with
  | nil => exact .nil
  | cons h1 _ ih => exact .one (h _ _ h1) ih

theorem mb {k : Nat} {r : MbRow} (h : mbRows[k]? = some r) (inp : List Byte) (cs : List Nat) :
    r.entry.Text inp cs ↔ Pieces (fun b w => (b, w) ∈ r.table) inp cs := C29_multibyte r (List.mem_of_getElem? h) inp cs

theorem pr {k : Nat} {r : PairRow} (h : pairRows[k]? = some r) (inp : List Byte) (cs : List Nat) :
    r.entry.Text inp cs ↔ Pieces2 (fun b w => (b, w) ∈ r.table) r.pairs inp cs :=
  C29_pairs r (List.mem_of_getElem? h) inp cs

theorem sb {k : Nat} {r : SbRow} (h : sbRows[k]? = some r) (inp : List Byte) (cs : List Nat) :
    r.entry.Text inp cs ↔ AllPairs (fun b w => (b.toNat, w) ∈ r.table) inp cs :=
  C29_single_byte r (List.mem_append_right _ (List.mem_of_getElem? h)) inp cs

set_option maxRecDepth 100000 in
theorem gbk_cp936 : cp936_entry.Extends ces_gbk_entry :=
  of_pieces (mb_text ces_gbk_table _ _ _ _ _) (mb_text cp936_table _ _ _ _ _) fun _ _ => table_sub ces_gbk_table ces_gbk_good cp936_table le_cp936

set_option maxRecDepth 100000 in
theorem gbk_2022 : gb18030_2022_entry.Extends ces_gbk_entry :=
  of_pieces (mb_text ces_gbk_table _ _ _ _ _) (mb_text gb18030_2022_table _ _ _ _ _) fun _ _ => table_sub ces_gbk_table ces_gbk_good gb18030_2022_table le_gb2022

set_option maxRecDepth 100000 in
theorem gbk_2005 : gb18030_2005_source.Extends ces_gbk_entry :=
  of_pieces (mb_text ces_gbk_table _ _ _ _ _) (mb_text gb18030_2005_table _ _ _ _ _) fun _ _ => table_sub ces_gbk_table ces_gbk_good gb18030_2005_table le_gb2005

set_option maxRecDepth 100000 in
theorem dec_kanji_euc_jp : euc_jp_entry.Extends dec_kanji_entry :=
  of_pieces (mb_text dec_kanji_table _ _ _ _ _) (mb_text euc_jp_table _ _ _ _ _) fun _ _ => table_sub dec_kanji_table dec_kanji_good euc_jp_table le_dec_kanji

theorem cp932_cp943 : cp943_entry.Extends cp932_entry := of_pieces (mb_text cp932_table _ _ _ _ _) (mb_text cp932_table _ _ _ _ _) fun _ _ h => h

theorem cp943_cp932 : cp932_entry.Extends cp943_entry := of_pieces (mb_text cp932_table _ _ _ _ _) (mb_text cp932_table _ _ _ _ _) fun _ _ h => h

set_option maxRecDepth 100000 in
theorem hk_1999_2001 : big5hkscs2001_entry.Extends big5hkscs1999_entry :=
  of_pieces2 (pair_text (hk_rel hk1999_two hk1999_dgood hk1999_pairs) hk1999_table) (pair_text (hk_rel hk2001_two hk2001_dgood hk2001_pairs) hk2001_table) fun _ _ =>
    table_sub hk1999_table hk1999_good hk2001_table (le_hk hk1999_d [hkscs2001_dec.mbtowc])

set_option maxRecDepth 100000 in
theorem hk_2001_2004 : big5hkscs2004_entry.Extends big5hkscs2001_entry :=
  of_pieces2 (pair_text (hk_rel hk2001_two hk2001_dgood hk2001_pairs) hk2001_table) (pair_text (hk_rel hk2004_two hk2004_dgood hk2004_pairs) hk2004_table) fun _ _ =>
    table_sub hk2001_table hk2001_good hk2004_table (le_hk hk2001_d [hkscs2004_dec.mbtowc])

set_option maxRecDepth 100000 in
theorem hk_2004_2008 : big5hkscs2008_entry.Extends big5hkscs2004_entry :=
  of_pieces2 (pair_text (hk_rel hk2004_two hk2004_dgood hk2004_pairs) hk2004_table) (pair_text (hk_rel hk2008_two hk2008_dgood hk2008_pairs) hk2008_table) fun _ _ =>
    table_sub hk2004_table hk2004_good hk2008_table (le_hk hk2004_d [hkscs2008_dec.mbtowc])

/-! ## Single-byte encodings -/

/-- The elements of the first list are found in the second one, in this order. -/
def inOrder : List (Nat × Nat) → List (Nat × Nat) → Bool
  | [], _ => true
  | _ :: _, [] => false
  | p :: l, q :: l' => if Nat.beq p.1 q.1 && Nat.beq p.2 q.2 then inOrder l l' else inOrder (p :: l) l'

theorem inOrder_sub : ∀ {l' l : List (Nat × Nat)}, inOrder l l' = true → ∀ p ∈ l, p ∈ l'
  | _, [], _ => fun _ h => nomatch h
  | [], _ :: _, h => by simp [inOrder] at h
  | q :: l', p :: l, h => by
    unfold inOrder at h
    split at h
    · next he =>
      rw [Bool.and_eq_true] at he
      have hp : p = q := Prod.ext (Nat.eq_of_beq_eq_true he.1) (Nat.eq_of_beq_eq_true he.2)
      intro x hx
      rcases List.mem_cons.1 hx with rfl | hx
      · rw [hp]; exact List.mem_cons_self
      · exact List.mem_cons_of_mem _ (inOrder_sub h x hx)
    · intro x hx
      exact List.mem_cons_of_mem _ (inOrder_sub h x hx)

theorem sb_sub {i j : Nat} {r r' : SbRow} (h : sbRows[i]? = some r) (h' : sbRows[j]? = some r')
    (hc : inOrder r.table r'.table = true) : r'.entry.Extends r.entry :=
  of_single (sb h) (sb h') fun _ _ hb => inOrder_sub hc _ hb

theorem tis_8859_11 : iso8859_11_entry.Extends tis620_entry := sb_sub (i := 80) (j := 44) rfl rfl (by decide +kernel)
theorem tis_cp874 : cp874_entry.Extends tis620_entry := sb_sub (i := 80) (j := 36) rfl rfl (by decide +kernel)
theorem tis_cp1161 : cp1161_entry.Extends tis620_entry := sb_sub (i := 80) (j := 8) rfl rfl (by decide +kernel)
theorem cp874_cp1162 : cp1162_entry.Extends cp874_entry := sb_sub (i := 36) (j := 9) rfl rfl (by decide +kernel)
theorem roman_jisx0201 : jisx0201_entry.Extends iso646_jp_entry := sb_sub (i := 42) (j := 57) rfl rfl (by decide +kernel)
theorem e424_12712 : ebcdic12712_entry.Extends ebcdic424_entry := sb_sub (i := 124) (j := 113) rfl rfl (by decide +kernel)
theorem e875_4971 : ebcdic4971_entry.Extends ebcdic875_entry := sb_sub (i := 131) (j := 126) rfl rfl (by decide +kernel)

theorem sb_mb {m : M MbRet} {w : Nat → W} {T irr : List (List Byte × Nat)} (h : TableOK m w T irr)
    {r : SbRow} (hc : r.table.all (fun p => decide (m.val [u8 p.1] = .char p.2 1)) = true) (b : Byte) (wc : Nat)
    (hb : (b.toNat, wc) ∈ r.table) : ([b], wc) ∈ T := by
  have := List.all_eq_true.1 hc _ hb
  rw [decide_eq_true_eq] at this
  have hu : u8 b.toNat = b := by simp [u8]
  simp only [hu] at this
  exact h.mem (by simp) this

set_option maxRecDepth 100000 in
theorem jisx0201_sjis : sjis_entry.Extends jisx0201_entry :=
  single_pieces (sb (k := 57) rfl) (mb_text sjis_table _ _ _ _ _) (sb_mb sjis_table (by decide +kernel))

set_option maxRecDepth 100000 in
theorem jisx0201_sjx : shift_jisx0213_entry.Extends jisx0201_entry :=
  single_pieces2 (sb (k := 57) rfl) (pair_text (sjx_rel sjx_ok) sjx_ok) (sb_mb sjx_ok (by decide +kernel))

/-! ## Unicode -/

theorem of_fixed {i j : Nat} {S S' : FixedForm} (h : fixedForms[i]? = some S) (h' : fixedForms[j]? = some S')
    (hh : ∀ c, S.has c → S'.has c) (hb : S.bytes = S'.bytes) : S'.entry.Extends S.entry := by
  intro inp cs ht
  have := ((C23_fixed_units S (List.mem_of_getElem? h) inp cs).1).1 ht
  refine ((C23_fixed_units S' (List.mem_of_getElem? h') inp cs).1).2 ⟨fun c hc => hh c (this.1 c hc), ?_⟩
  rw [← hb]; exact this.2

theorem ucs2_scalar {c : Nat} (h : Ucs2 c) : Scalar c := by unfold Ucs2 at h; unfold Scalar; omega

theorem scalar_32 (c : Nat) (h : Scalar c) : c < 4294967296 := by have := h.lt; omega

theorem ucs2_utf16Enc {put : Nat → List Byte} {c : Nat} (h : Ucs2 c) : utf16Enc put c = put c := by
  unfold utf16Enc; rw [if_pos h.1]

theorem utf32be_ucs4be : ucs4be_entry.Extends utf32be_entry := of_fixed (i := 0) (j := 6) rfl rfl scalar_32 rfl
theorem utf32le_ucs4le : ucs4le_entry.Extends utf32le_entry := of_fixed (i := 1) (j := 7) rfl rfl scalar_32 rfl
theorem ucs4be_swapped : ucs4swapped_entry.Extends ucs4be_entry := of_fixed (i := 6) (j := 9) rfl rfl (fun _ h => h) rfl
theorem ucs4swapped_be : ucs4be_entry.Extends ucs4swapped_entry := of_fixed (i := 9) (j := 6) rfl rfl (fun _ h => h) rfl
theorem ucs4le_internal : ucs4internal_entry.Extends ucs4le_entry := of_fixed (i := 7) (j := 8) rfl rfl (fun _ h => h) rfl
theorem ucs4internal_le : ucs4le_entry.Extends ucs4internal_entry := of_fixed (i := 8) (j := 7) rfl rfl (fun _ h => h) rfl
theorem ucs2be_swapped : ucs2swapped_entry.Extends ucs2be_entry := of_fixed (i := 2) (j := 5) rfl rfl (fun _ h => h) rfl
theorem ucs2swapped_be : ucs2be_entry.Extends ucs2swapped_entry := of_fixed (i := 5) (j := 2) rfl rfl (fun _ h => h) rfl
theorem ucs2le_internal : ucs2internal_entry.Extends ucs2le_entry := of_fixed (i := 3) (j := 4) rfl rfl (fun _ h => h) rfl
theorem ucs2internal_le : ucs2le_entry.Extends ucs2internal_entry := of_fixed (i := 4) (j := 3) rfl rfl (fun _ h => h) rfl

theorem ucs2be_utf16be : utf16be_entry.Extends ucs2be_entry := by
  intro inp cs ht
  obtain ⟨h1, h2⟩ := ((C23_fixed_units _ (List.mem_of_getElem? (i := 2) rfl) inp cs).1).1 ht
  refine (C22_utf16be_le inp cs).1.2 ⟨fun c hc => ucs2_scalar (h1 c hc), h2.trans ?_⟩
  exact flatMap_congr fun c hc => (ucs2_utf16Enc (h1 c hc)).symm

theorem ucs2le_utf16le : utf16le_entry.Extends ucs2le_entry := by
  intro inp cs ht
  obtain ⟨h1, h2⟩ := ((C23_fixed_units _ (List.mem_of_getElem? (i := 3) rfl) inp cs).1).1 ht
  refine (C22_utf16be_le inp cs).2.2.1.2 ⟨fun c hc => ucs2_scalar (h1 c hc), h2.trans ?_⟩
  exact flatMap_congr fun c hc => (ucs2_utf16Enc (h1 c hc)).symm

theorem of_marked {i j : Nat} {S S' : BomForm} (h : bomForms[i]? = some S) (h' : bomForms[j]? = some S')
    (hh : ∀ c, S.has c → S'.has c) (hp : ∀ o c, S.has c → S'.put o c = S.put o c) (hm : ∀ o, S'.mark o = S.mark o) :
    S'.entry.Extends S.entry := by
  intro inp cs ht
  rw [C56_reads S (List.mem_of_getElem? h)] at ht
  rw [C56_reads S' (List.mem_of_getElem? h')]
  generalize Order.big = o at ht
  induction ht with
  | nil => exact .nil
  | char hc _ ih => rw [← hp _ _ hc]; exact .char (hh _ hc) ih
  | mark o' _ ih => rw [← hm]; exact .mark o' ih

theorem ucs2_utf16 : utf16_entry.Extends ucs2_entry :=
  of_marked (i := 2) (j := 0) rfl rfl (fun _ h => ⟨ucs2_scalar h.1, h.2⟩)
    (fun o _ h => by cases o <;> exact ucs2_utf16Enc h.1) (fun o => by cases o <;> rfl)

theorem utf32_ucs4 : ucs4_entry.Extends utf32_entry :=
  of_marked (i := 1) (j := 3) rfl rfl (fun _ h => ⟨by have := h.1.lt; omega, h.2⟩)
    (fun o _ _ => by cases o <;> rfl) (fun o => by cases o <;> rfl)

/-! ## ISO-2022 -/

theorem iso_reads {P Q : Iso.Profile} (hd : ∀ x ∈ P.desig, x ∈ Q.desig) (hs : P.shifts = Q.shifts) (hl : P.lines = Q.lines)
    {g : Iso.Regs} {s : List Byte} {w : List Nat} (h : Iso.Reads P.Step g s w) : Iso.Reads Q.Step g s w := by
  have ha : ∀ g b, Q.after g b = P.after g b := by intro g b; unfold Iso.Profile.after; rw [hl]
  have hc : Q.control = P.control := by unfold Iso.Profile.control; rw [hs]
  induction h with
  | nil => exact .nil _
  | step h1 _ ih =>
    refine .step ?_ ih
    cases h1 with
    | desig _ _ _ h => exact .desig _ _ _ _ (hd _ h)
    | so h1 h2 => exact .so _ (hs ▸ h1) h2
    | si h1 => exact .si _ (hs ▸ h1)
    | char _ _ _ h1 h2 h3 => rw [← ha]; exact .char _ _ _ _ h1 h2 (hc ▸ h3)
    | ss2 _ _ _ h1 h2 => exact .ss2 _ _ _ _ h1 h2
    | ss3 _ _ _ h1 h2 => exact .ss3 _ _ _ _ h1 h2

theorem jp1_jp2_reads {g : Iso.Regs} {s : List Byte} {w : List Nat} (h : Iso.Reads Iso.jp1.Step g s w)
    (h1 : g.g1 = none) (h2 : g.g2 = none) (h3 : g.g3 = none) : Iso.Reads (Iso.jp2 0 true).Step g s w := by
  induction h with
  | nil => exact .nil _
  | @step g b w g' s ws hs _ ih =>
    cases hs with
    | desig _ r x h =>
      have hm : (b, r, x) ∈ (Iso.jp2 0 true).desig := by
        unfold Iso.jp2
        exact List.mem_append_left _ (List.mem_append_left _ h)
      have hr : r = .G0 := by
        simp only [Iso.jp1, Iso.jp, List.cons_append, List.nil_append, List.mem_cons, Prod.mk.injEq, List.not_mem_nil,
          or_false] at h
        rcases h with h | h | h | h | h <;> exact h.2.1
      subst hr
      exact .step (.desig _ _ _ _ hm) (ih h1 h2 h3)
    | so h _ => exact absurd h (by decide)
    | si h => exact absurd h (by decide)
    | char x _ _ hx hb hc =>
      have ha : (Iso.jp2 0 true).after g b = Iso.jp1.after g b := by
        unfold Iso.Profile.after
        cases g
        simp only at h1 h2 h3
        subst h1 h2 h3
        split <;> split <;> rfl
      have hg : Iso.jp1.after g b = g := by
        unfold Iso.Profile.after
        exact if_neg fun h => absurd h.1 (by decide)
      rw [hg] at ih
      refine .step (.char _ _ _ _ hx hb hc) ?_
      rw [ha, hg]
      exact ih h1 h2 h3
    | ss2 _ _ _ h => rw [h2] at h; cases h
    | ss3 _ _ _ h => rw [h3] at h; cases h

theorem iso {k : Nat} {r : IsoRow} (h : isoRows[k]? = some r) (inp : List Byte) (cs : List Nat) :
    r.entry.Text inp cs ↔ Iso.Reads r.profile.Step Iso.Regs.init inp cs := C47_reads r (List.mem_of_getElem? h) inp cs

theorem cn_cnext : iso2022_cn_ext_entry.Extends iso2022_cn_entry := fun inp cs h =>
  (iso (k := 2) rfl inp cs).2 (iso_reads (P := Iso.cn) (Q := Iso.cnExt) (by simp [Iso.cn, Iso.cnExt]) rfl rfl ((iso (k := 1) rfl inp cs).1 h))

theorem jp_jp1 : iso2022_jp1_entry.Extends iso2022_jp_entry := fun inp cs h =>
  (iso (k := 4) rfl inp cs).2 (iso_reads (P := Iso.jp) (Q := Iso.jp1) (fun _ h => List.mem_append_left _ h) rfl rfl ((iso (k := 3) rfl inp cs).1 h))

theorem jp_jp3 : iso2022_jp3_entry.Extends iso2022_jp_entry := fun inp cs h =>
  (iso (k := 5) rfl inp cs).2 (iso_reads (P := Iso.jp) (Q := Iso.jp3) (fun _ h => List.mem_append_left _ h) rfl rfl ((iso (k := 3) rfl inp cs).1 h))

theorem jp1_jp2 : iso2022_jp2_entry.Extends iso2022_jp1_entry := fun inp cs h =>
  (C47_jp2_reads inp cs).2 (jp1_jp2_reads ((iso (k := 4) rfl inp cs).1 h) rfl rfl rfl)

/-! ## ASCII -/

theorem ascii_text (inp : List Byte) (cs : List Nat) (h : ascii_entry.Text inp cs) :
    (∀ b ∈ inp, b.toNat < 128) ∧ cs = inp.map UInt8.toNat := by
  rw [ascii_byteMap.text] at h
  induction h with
  | nil => exact ⟨by simp, rfl⟩
  | @cons a b as bs h1 _ ih =>
    split at h1
    · next hlt =>
      cases h1
      refine ⟨?_, by rw [ih.2]; rfl⟩
      intro b hb
      rcases List.mem_cons.1 hb with rfl | hb
      · exact hlt
      · exact ih.1 b hb
    · cases h1

theorem of_transparent {A : Entry} (h : A.AsciiTransparent) (h0 : A.Text [] []) : A.Extends ascii_entry := by
  intro inp cs ht
  obtain ⟨h1, rfl⟩ := ascii_text inp cs ht
  have := ((h inp h1).1 [] [] h0).2
  simpa using this

theorem ascii_armscii : armscii_8_entry.Extends ascii_entry :=
  of_single (C29_single_byte _ (List.mem_of_getElem? (i := 0) rfl)) (sb (k := 0) rfl) fun b w hb => by
    have hc : inOrder (identity 128) armscii_8_from = true := by decide +kernel
    exact inOrder_sub hc _ hb

theorem cp1258_low : cp1258_read.all (fun p => decide (p.1.length ≤ 1) || (p.1.tail.any fun b => decide (128 ≤ b.toNat))) = true := by
  decide +kernel

theorem cp1258_asc : (List.range 128).all (fun b => cp1258_read.contains ([u8 b], b)) = true := by decide +kernel

theorem ascii_cp1258 : cp1258_entry.Extends ascii_entry := by
  intro inp cs ht
  obtain ⟨h1, rfl⟩ := ascii_text inp cs ht
  rw [(C29_combining_exact _ _).2.1]
  clear ht
  induction inp with
  | nil => exact .nil
  | cons b s ih =>
    have hb := h1 b (by simp)
    have hm := List.all_eq_true.1 cp1258_asc b.toNat (List.mem_range.2 hb)
    have hu : u8 b.toNat = b := by simp [u8]
    rw [hu] at hm
    refine Longest.cons (b := [b]) (by simpa using hm) ?_ (ih fun c hc => h1 c (List.mem_cons_of_mem _ hc))
    intro r hr t he
    have := List.all_eq_true.1 cp1258_low r hr
    simp only [Bool.or_eq_true, decide_eq_true_eq, List.any_eq_true] at this
    rcases this with h | ⟨c, hc, hc'⟩
    · exact h
    · exfalso
      have hin : c ∈ b :: s := by
        have : c ∈ [b] ++ s := by rw [he]; exact List.mem_append_left _ (List.mem_of_mem_tail hc)
        exact this
      have := h1 c hin
      omega

theorem ascii_gbk : ces_gbk_entry.Extends ascii_entry :=
  of_transparent ((C28_registered _ (List.mem_of_getElem? (i := 29) rfl)).2 (by decide)) ⟨[], IState.init, .nil _, by rfl⟩

theorem kept_init : sources.all (fun A => (A.dec.kept IState.init).isEmpty) = true := by decide +kernel

theorem empty_text {A : Entry} (hA : A ∈ sources) : A.Text [] [] := by
  have := List.all_eq_true.1 kept_init A hA
  exact ⟨[], IState.init, .nil _, by rw [List.isEmpty_iff.1 this]; rfl⟩

theorem ascii_ext {B : Entry} (hB : B ∈ sources) (h : B.idx ∉ notAsciiIdx ∨ B.idx ∈ asciiReadersIdx) : B.Extends ascii_entry := by
  rcases h with h | h
  · rcases List.mem_cons.1 hB with rfl | hT
    · exact trans' gbk_2005 ascii_gbk
    · exact of_transparent ((C28_registered B hT).2 h) (empty_text hB)
  · simp only [asciiReadersIdx, List.mem_cons, List.not_mem_nil, or_false] at h
    rcases h with h | h
    · obtain rfl := sources_unique cp1258_entry (List.mem_of_getElem? (i := 75) rfl) B hB h.symm
      exact ascii_cp1258
    · obtain rfl := sources_unique armscii_8_entry (List.mem_of_getElem? (i := 94) rfl) B hB h.symm
      exact ascii_armscii

/-- The encodings of `extensions`. -/
noncomputable def extPairs : List (Entry × Entry) :=
  [(ucs2_entry, utf16_entry), (ucs2be_entry, utf16be_entry), (ucs2be_entry, ucs2swapped_entry),
   (ucs2le_entry, utf16le_entry), (ucs2le_entry, ucs2internal_entry), (ucs4be_entry, ucs4swapped_entry),
   (ucs4le_entry, ucs4internal_entry), (utf32_entry, ucs4_entry), (utf32be_entry, ucs4be_entry),
   (utf32be_entry, ucs4swapped_entry), (utf32le_entry, ucs4le_entry), (utf32le_entry, ucs4internal_entry),
   (ucs2internal_entry, ucs2le_entry), (ucs2internal_entry, utf16le_entry), (ucs2swapped_entry, ucs2be_entry),
   (ucs2swapped_entry, utf16be_entry), (ucs4internal_entry, ucs4le_entry), (ucs4swapped_entry, ucs4be_entry),
   (cp932_entry, cp943_entry), (iso2022_jp_entry, iso2022_jp1_entry), (iso2022_jp_entry, iso2022_jp2_entry),
   (iso2022_jp_entry, iso2022_jp3_entry), (iso2022_jp1_entry, iso2022_jp2_entry),
   (ces_gbk_entry, gb18030_2005_source), (ces_gbk_entry, cp936_entry), (ces_gbk_entry, gb18030_2022_entry),
   (iso2022_cn_entry, iso2022_cn_ext_entry), (big5hkscs1999_entry, big5hkscs2001_entry),
   (big5hkscs1999_entry, big5hkscs2004_entry), (big5hkscs1999_entry, big5hkscs2008_entry),
   (big5hkscs2001_entry, big5hkscs2004_entry), (big5hkscs2001_entry, big5hkscs2008_entry),
   (big5hkscs2004_entry, big5hkscs2008_entry), (dec_kanji_entry, euc_jp_entry), (tis620_entry, iso8859_11_entry),
   (tis620_entry, cp874_entry), (tis620_entry, cp1161_entry), (tis620_entry, cp1162_entry),
   (cp874_entry, cp1162_entry), (iso646_jp_entry, sjis_entry), (iso646_jp_entry, jisx0201_entry),
   (iso646_jp_entry, shift_jisx0213_entry), (jisx0201_entry, sjis_entry), (jisx0201_entry, shift_jisx0213_entry),
   (cp943_entry, cp932_entry), (ebcdic424_entry, ebcdic12712_entry), (ebcdic875_entry, ebcdic4971_entry)]

theorem extPairs_idx : extPairs.map (fun p => (p.1.idx, p.2.idx)) = extensions := by decide +kernel

theorem extPairs_ok : ∀ p ∈ extPairs, p.1 ∈ sources ∧ p.2 ∈ sources ∧ p.2.Extends p.1 :=
  all_cons ⟨(List.mem_of_getElem? (i := 3) rfl), (List.mem_of_getElem? (i := 9) rfl), ucs2_utf16⟩ <|
  all_cons ⟨(List.mem_of_getElem? (i := 4) rfl), (List.mem_of_getElem? (i := 10) rfl), ucs2be_utf16be⟩ <|
  all_cons ⟨(List.mem_of_getElem? (i := 4) rfl), (List.mem_of_getElem? (i := 17) rfl), ucs2be_swapped⟩ <|
  all_cons ⟨(List.mem_of_getElem? (i := 5) rfl), (List.mem_of_getElem? (i := 11) rfl), ucs2le_utf16le⟩ <|
  all_cons ⟨(List.mem_of_getElem? (i := 5) rfl), (List.mem_of_getElem? (i := 16) rfl), ucs2le_internal⟩ <|
  all_cons ⟨(List.mem_of_getElem? (i := 7) rfl), (List.mem_of_getElem? (i := 19) rfl), ucs4be_swapped⟩ <|
  all_cons ⟨(List.mem_of_getElem? (i := 8) rfl), (List.mem_of_getElem? (i := 18) rfl), ucs4le_internal⟩ <|
  all_cons ⟨(List.mem_of_getElem? (i := 12) rfl), (List.mem_of_getElem? (i := 6) rfl), utf32_ucs4⟩ <|
  all_cons ⟨(List.mem_of_getElem? (i := 13) rfl), (List.mem_of_getElem? (i := 7) rfl), utf32be_ucs4be⟩ <|
  all_cons ⟨(List.mem_of_getElem? (i := 13) rfl), (List.mem_of_getElem? (i := 19) rfl), (trans' ucs4be_swapped utf32be_ucs4be)⟩ <|
  all_cons ⟨(List.mem_of_getElem? (i := 14) rfl), (List.mem_of_getElem? (i := 8) rfl), utf32le_ucs4le⟩ <|
  all_cons ⟨(List.mem_of_getElem? (i := 14) rfl), (List.mem_of_getElem? (i := 18) rfl), (trans' ucs4le_internal utf32le_ucs4le)⟩ <|
  all_cons ⟨(List.mem_of_getElem? (i := 16) rfl), (List.mem_of_getElem? (i := 5) rfl), ucs2internal_le⟩ <|
  all_cons ⟨(List.mem_of_getElem? (i := 16) rfl), (List.mem_of_getElem? (i := 11) rfl), (trans' ucs2le_utf16le ucs2internal_le)⟩ <|
  all_cons ⟨(List.mem_of_getElem? (i := 17) rfl), (List.mem_of_getElem? (i := 4) rfl), ucs2swapped_be⟩ <|
  all_cons ⟨(List.mem_of_getElem? (i := 17) rfl), (List.mem_of_getElem? (i := 10) rfl), (trans' ucs2be_utf16be ucs2swapped_be)⟩ <|
  all_cons ⟨(List.mem_of_getElem? (i := 18) rfl), (List.mem_of_getElem? (i := 8) rfl), ucs4internal_le⟩ <|
  all_cons ⟨(List.mem_of_getElem? (i := 19) rfl), (List.mem_of_getElem? (i := 7) rfl), ucs4swapped_be⟩ <|
  all_cons ⟨(List.mem_of_getElem? (i := 24) rfl), (List.mem_of_getElem? (i := 116) rfl), cp932_cp943⟩ <|
  all_cons ⟨(List.mem_of_getElem? (i := 25) rfl), (List.mem_of_getElem? (i := 26) rfl), jp_jp1⟩ <|
  all_cons ⟨(List.mem_of_getElem? (i := 25) rfl), (List.mem_of_getElem? (i := 27) rfl), (trans' jp1_jp2 jp_jp1)⟩ <|
  all_cons ⟨(List.mem_of_getElem? (i := 25) rfl), (List.mem_of_getElem? (i := 193) rfl), jp_jp3⟩ <|
  all_cons ⟨(List.mem_of_getElem? (i := 26) rfl), (List.mem_of_getElem? (i := 27) rfl), jp1_jp2⟩ <|
  all_cons ⟨(List.mem_of_getElem? (i := 30) rfl), (List.mem_of_getElem? (i := 0) rfl), gbk_2005⟩ <|
  all_cons ⟨(List.mem_of_getElem? (i := 30) rfl), (List.mem_of_getElem? (i := 31) rfl), gbk_cp936⟩ <|
  all_cons ⟨(List.mem_of_getElem? (i := 30) rfl), (List.mem_of_getElem? (i := 32) rfl), gbk_2022⟩ <|
  all_cons ⟨(List.mem_of_getElem? (i := 33) rfl), (List.mem_of_getElem? (i := 34) rfl), cn_cnext⟩ <|
  all_cons ⟨(List.mem_of_getElem? (i := 39) rfl), (List.mem_of_getElem? (i := 40) rfl), hk_1999_2001⟩ <|
  all_cons ⟨(List.mem_of_getElem? (i := 39) rfl), (List.mem_of_getElem? (i := 41) rfl), (trans' hk_2001_2004 hk_1999_2001)⟩ <|
  all_cons ⟨(List.mem_of_getElem? (i := 39) rfl), (List.mem_of_getElem? (i := 42) rfl), (trans' hk_2004_2008 (trans' hk_2001_2004 hk_1999_2001))⟩ <|
  all_cons ⟨(List.mem_of_getElem? (i := 40) rfl), (List.mem_of_getElem? (i := 41) rfl), hk_2001_2004⟩ <|
  all_cons ⟨(List.mem_of_getElem? (i := 40) rfl), (List.mem_of_getElem? (i := 42) rfl), (trans' hk_2004_2008 hk_2001_2004)⟩ <|
  all_cons ⟨(List.mem_of_getElem? (i := 41) rfl), (List.mem_of_getElem? (i := 42) rfl), hk_2004_2008⟩ <|
  all_cons ⟨(List.mem_of_getElem? (i := 47) rfl), (List.mem_of_getElem? (i := 22) rfl), dec_kanji_euc_jp⟩ <|
  all_cons ⟨(List.mem_of_getElem? (i := 102) rfl), (List.mem_of_getElem? (i := 59) rfl), tis_8859_11⟩ <|
  all_cons ⟨(List.mem_of_getElem? (i := 102) rfl), (List.mem_of_getElem? (i := 103) rfl), tis_cp874⟩ <|
  all_cons ⟨(List.mem_of_getElem? (i := 102) rfl), (List.mem_of_getElem? (i := 120) rfl), tis_cp1161⟩ <|
  all_cons ⟨(List.mem_of_getElem? (i := 102) rfl), (List.mem_of_getElem? (i := 121) rfl), (trans' cp874_cp1162 tis_cp874)⟩ <|
  all_cons ⟨(List.mem_of_getElem? (i := 103) rfl), (List.mem_of_getElem? (i := 121) rfl), cp874_cp1162⟩ <|
  all_cons ⟨(List.mem_of_getElem? (i := 106) rfl), (List.mem_of_getElem? (i := 23) rfl), (trans' jisx0201_sjis roman_jisx0201)⟩ <|
  all_cons ⟨(List.mem_of_getElem? (i := 106) rfl), (List.mem_of_getElem? (i := 107) rfl), roman_jisx0201⟩ <|
  all_cons ⟨(List.mem_of_getElem? (i := 106) rfl), (List.mem_of_getElem? (i := 192) rfl), (trans' jisx0201_sjx roman_jisx0201)⟩ <|
  all_cons ⟨(List.mem_of_getElem? (i := 107) rfl), (List.mem_of_getElem? (i := 23) rfl), jisx0201_sjis⟩ <|
  all_cons ⟨(List.mem_of_getElem? (i := 107) rfl), (List.mem_of_getElem? (i := 192) rfl), jisx0201_sjx⟩ <|
  all_cons ⟨(List.mem_of_getElem? (i := 116) rfl), (List.mem_of_getElem? (i := 24) rfl), cp943_cp932⟩ <|
  all_cons ⟨(List.mem_of_getElem? (i := 148) rfl), (List.mem_of_getElem? (i := 189) rfl), e424_12712⟩ <|
  all_cons ⟨(List.mem_of_getElem? (i := 154) rfl), (List.mem_of_getElem? (i := 188) rfl), e875_4971⟩ all_nil

/-- What `C71_exact` says, computed. -/
def allowed (i j : Nat) : Bool :=
  Nat.beq i j || (Nat.beq i ei_ascii && (!(notAsciiIdx.any (Nat.beq j)) || asciiReadersIdx.any (Nat.beq j))) ||
    extensions.any fun p => Nat.beq i p.1 && Nat.beq j p.2

theorem any_beq {l : List Nat} {j : Nat} : l.any (Nat.beq j) = true ↔ j ∈ l := by
  rw [List.any_eq_true]
  constructor
  · rintro ⟨x, hx, h⟩
    rwa [Nat.eq_of_beq_eq_true h]
  · intro h; exact ⟨j, h, Nat.beq_refl j⟩

theorem allowed_iff {i j : Nat} : allowed i j = true →
    i = j ∨ (i = ei_ascii ∧ (j ∉ notAsciiIdx ∨ j ∈ asciiReadersIdx)) ∨ (i, j) ∈ extensions := by
  unfold allowed
  intro h
  rw [Bool.or_eq_true, Bool.or_eq_true, Bool.and_eq_true, Bool.or_eq_true, Bool.not_eq_true', any_beq, List.any_eq_true] at h
  rcases h with (h | ⟨h1, h2⟩) | ⟨p, hp, h⟩
  · exact .inl (Nat.eq_of_beq_eq_true h)
  · refine .inr (.inl ⟨Nat.eq_of_beq_eq_true h1, ?_⟩)
    rcases h2 with h2 | h2
    · exact .inl fun hm => by rw [any_beq.2 hm] at h2; cases h2
    · exact .inr h2
  · rw [Bool.and_eq_true] at h
    rw [Nat.eq_of_beq_eq_true h.1, Nat.eq_of_beq_eq_true h.2]
    exact .inr (.inr hp)

theorem sigs_pairs : sigs.all (fun a => sigs.all fun b => differ a.2 b.2 || allowed a.1 b.1) = true := by decide +kernel

theorem differ_or {A B : Entry} (hA : A ∈ sources) (hB : B ∈ sources) :
    (∃ inp cs, A.Text inp cs ∧ ¬ B.Text inp cs) ∨ allowed A.idx B.idx = true := by
  have h := sigs_pairs
  rw [← sigs_ok, List.all_eq_true] at h
  have h1 := h _ (List.mem_map.2 ⟨A, hA, rfl⟩)
  rw [List.all_eq_true] at h1
  have h2 := h1 _ (List.mem_map.2 ⟨B, hB, rfl⟩)
  rw [Bool.or_eq_true] at h2
  exact h2.imp differ_sound id

/-- What the bytes are read as, computed. -/
def result (A : Entry) (inp : List Byte) : Option (Option (List Nat)) :=
  (rd A.atom 16 IState.init inp).map (Option.map fun x => x.1 ++ A.dec.kept x.2)

theorem result_text {A : Entry} {inp : List Byte} {o : Option (List Nat)} (h : result A inp = some o) (cs : List Nat) :
    A.Text inp cs ↔ o = some cs := by
  obtain ⟨x, h1, rfl⟩ := Option.map_eq_some_iff.1 h
  constructor
  · rintro ⟨ds, is, hc, rfl⟩
    rw [(rd_sound h1 _ _).1 hc]; rfl
  · intro he
    obtain ⟨y, rfl, rfl⟩ := Option.map_eq_some_iff.1 he
    exact ⟨y.1, y.2, (rd_sound h1 _ _).2 rfl, rfl⟩

end Ext

/-! ## C71 -/

/-- C71: for any two encodings, the second one reads all texts of the first one, as the same characters, exactly if
they are the same, or the first one is ASCII and the second one compatible with ASCII or one of the two in `asciiReadersIdx`, or
the pair is listed in `extensions`. -/
theorem C71_exact : ∀ A ∈ sources, ∀ B ∈ sources, B.Extends A ↔
    A.idx = B.idx ∨ (A.idx = ei_ascii ∧ (B.idx ∉ notAsciiIdx ∨ B.idx ∈ asciiReadersIdx)) ∨ (A.idx, B.idx) ∈ extensions := by
  intro A hA B hB
  constructor
  · intro h
    rcases Ext.differ_or hA hB with ⟨inp, cs, h1, h2⟩ | h'
    · exact absurd (h _ _ h1) h2
    · exact Ext.allowed_iff h'
  · rintro (h | ⟨h, h'⟩ | h)
    · obtain rfl := sources_unique A hA B hB h
      exact Ext.rfl' A
    · obtain rfl := sources_unique ascii_entry (List.mem_of_getElem? (i := 1) rfl) A hA h.symm
      exact Ext.ascii_ext hB h'
    · rw [← Ext.extPairs_idx] at h
      obtain ⟨p, hp, he⟩ := List.mem_map.1 h
      obtain ⟨h1, h2, h3⟩ := Ext.extPairs_ok p hp
      have e1 := sources_unique p.1 h1 A hA (Prod.mk.inj he).1
      have e2 := sources_unique p.2 h2 B hB (Prod.mk.inj he).2
      rw [← e1, ← e2]
      exact h3

/-- C71 in terms of the API: a text of an encoding is converted to the same bytes, with the same return value, from an encoding
that extends it, whatever the target and with or without discarding. (The encodings with byte order marks and those
that keep characters back are excluded; see C49.) -/
theorem C71_convert : ∀ A ∈ sources, ∀ B ∈ sources, ∀ T ∈ targets,
    (A.idx = ei_ascii ∧ (B.idx ∉ notAsciiIdx ∨ B.idx ∈ asciiReadersIdx)) ∨ (A.idx, B.idx) ∈ extensions →
    A.idx ∉ markedIdx → B.idx ∉ markedIdx → A.idx ∉ holdingIdx → B.idx ∉ holdingIdx →
    ∀ (discard : Bool) (inp : List Byte) (cs : List Nat), A.Text inp cs →
    ∀ (alloc : Nat → List Byte), (∀ n, (alloc n).length = n) →
    ∃ r r', convert (A.conv T discard) St.init inp true true (fun n => some (alloc n)) = .ok r ∧
      convert (B.conv T discard) St.init inp true true (fun n => some (alloc n)) = .ok r' ∧
      r.ret = r'.ret ∧ r.outLen = r'.outLen ∧ r.data = r'.data :=
  fun A hA B hB T hT h h1 h2 h3 h4 discard inp cs ht alloc hal =>
    C49_registered_partial A hA B hB T hT h1 h2 h3 h4 discard inp inp cs ht
      (((C71_exact A hA B hB).2 (.inr h)) inp cs ht) alloc hal

/-- Without loss the encodings that keep characters back are included: if the characters of the text can be written in the target
encoding, both conversions succeed and give the same bytes. -/
theorem C71_lossless : ∀ A ∈ sources, ∀ B ∈ sources, ∀ T ∈ targets,
    (A.idx = ei_ascii ∧ (B.idx ∉ notAsciiIdx ∨ B.idx ∈ asciiReadersIdx)) ∨ (A.idx, B.idx) ∈ extensions →
    A.idx ∉ markedIdx → B.idx ∉ markedIdx →
    ∀ (discard : Bool) (inp : List Byte) (cs : List Nat) (out : List Byte), A.Text inp cs → T.Encodes cs out →
    ∀ (alloc : Nat → List Byte), (∀ n, (alloc n).length = n) →
    ∀ S, S = A ∨ S = B →
    ∃ r, convert (S.conv T discard) St.init inp true true (fun n => some (alloc n)) = .ok r ∧
      r.ret = .ok () ∧ r.outLen = some out.length ∧ r.data = some out := by
  rintro A hA B hB T _ h h1 h2 discard inp cs out ht he alloc hal S (rfl | rfl)
  · exact convert_text discard (sources_fixed _ hA h1) ht he alloc hal
  · exact convert_text discard (sources_fixed _ hB h2) (((C71_exact A hA _ hB).2 (.inr h)) inp cs ht) he alloc hal

/-- Pairs of encodings of which the second one is commonly taken for an extension of the first one, a text of the first one, its
characters, and what the second one reads: EUC-CN and GBK, CP936, GB18030 (the middle dot and the dash); EUC-KR and
CP949 (the postal code mark is missing); CP936 and GB18030 (the euro sign); GB18030:2005 and GB18030:2022;
SHIFT_JIS and CP932 (the yen sign); BIG5 and CP950; ISO-8859-1 and CP1252; ISO-8859-9 and CP1254; ISO-8859-8 and CP1255. -/
noncomputable def notExtensions : List (Entry × Entry × List Byte × List Nat × Option (List Nat)) :=
  [(euc_cn_entry, ces_gbk_entry, [0xa1, 0xa4], [0x30fb], some [0xb7]),
   (euc_cn_entry, cp936_entry, [0xa1, 0xaa], [0x2015], some [0x2014]),
   (euc_cn_entry, gb18030_2022_entry, [0xa1, 0xa4], [0x30fb], some [0xb7]),
   (euc_kr_entry, cp949_entry, [0xa2, 0xe8], [0x327e], none),
   (cp936_entry, gb18030_2022_entry, [0x80], [0x20ac], none),
   (gb18030_2005_source, gb18030_2022_entry, [0x82, 0x35, 0x90, 0x37], [0x9fb4], some [0xe81e]),
   (sjis_entry, cp932_entry, [0x5c], [0xa5], some [0x5c]),
   (ces_big5_entry, cp950_entry, [0xa1, 0x45], [0x2022], some [0x2027]),
   (iso8859_1_entry, cp1252_entry, [0x80], [0x80], some [0x20ac]),
   (iso8859_9_entry, cp1254_entry, [0x80], [0x80], some [0x20ac]),
   (iso8859_8_entry, cp1255_entry, [0x80], [0x80], some [0x20ac])]

/-- C71 does not hold for these pairs: the text is read as other characters or not at all. -/
theorem C71_violation : ∀ v ∈ notExtensions, v.1.Text v.2.2.1 v.2.2.2.1 ∧ v.2.2.2.2 ≠ some v.2.2.2.1 ∧
    ∀ ds, v.2.1.Text v.2.2.1 ds ↔ v.2.2.2.2 = some ds := by
  have h : ∀ v ∈ notExtensions, Ext.result v.1 v.2.2.1 = some (some v.2.2.2.1) ∧ v.2.2.2.2 ≠ some v.2.2.2.1 ∧
      Ext.result v.2.1 v.2.2.1 = some v.2.2.2.2 := by decide +kernel
  intro v hv
  obtain ⟨h1, h2, h3⟩ := h v hv
  exact ⟨(Ext.result_text h1 _).2 rfl, h2, fun ds => Ext.result_text h3 ds⟩

example : (sources.filter fun B => decide (B.idx ∉ notAsciiIdx ∨ B.idx ∈ asciiReadersIdx)).length = 102 := by decide +kernel

/-- A text of GBK read by GB18030. -/
example : ces_gbk_entry.Text [0xc4, 0xe3, 0x81, 0x40, 0x41] [0x4f60, 0x4e02, 0x41] ∧
    gb18030_2022_entry.Text [0xc4, 0xe3, 0x81, 0x40, 0x41] [0x4f60, 0x4e02, 0x41] :=
  have h : ces_gbk_entry.Text [0xc4, 0xe3, 0x81, 0x40, 0x41] [0x4f60, 0x4e02, 0x41] :=
    (Ext.result_text (show Ext.result ces_gbk_entry _ = some (some [0x4f60, 0x4e02, 0x41]) by decide +kernel) _).2 rfl
  ⟨h, (C71_exact ces_gbk_entry (List.mem_of_getElem? (i := 30) rfl) gb18030_2022_entry (List.mem_of_getElem? (i := 32) rfl)).2 (by decide) _ _ h⟩

end Reiconv
