import Verif.Props.Kinds

/-!
# How long an incomplete sequence can be

Helpers for C67 and C68 (`Props/Skip.lean`, `Props/Short.lean`).
-/

namespace Reiconv

namespace Skip

/-- With `N` bytes the decoder does not ask for more. -/
def Short (N : Nat) (A : Entry) : Prop := ∀ is s, A.decOK.Inv is → N ≤ s.length → 1 ≤ N → A.atom is s ≠ .more

theorem Short.mono {N L : Nat} {A : Entry} (h : Short N A) (h1 : 1 ≤ N) (hl : N ≤ L) : Short L A :=
  fun is s hI hs _ => h is s hI (by omega) h1

/-! ## Programs -/

/-- The program never asks for more than `N` bytes. -/
def Most {α : Type} (N : Nat) : M α → Prop
  | .ret _ => True
  | .ub => True
  | .abort => True
  | .need j t => j ≤ N ∧ Most N t
  | .byte _ f => ∀ b, b < 256 → Most N (f b)

theorem most_run {α : Type} {N : Nat} : ∀ (m : M α) (s : List Byte), Most N m → N ≤ s.length → m.run s ≠ .ok none := by
  intro m
  induction m with
  | ret a => intro s _ _; simp [M.run]
  | ub => intro s _ _; simp [M.run]
  | abort => intro s _ _; simp [M.run]
  | need j t ih =>
    intro s h hs
    have h : j ≤ N ∧ Most N t := h
    simp only [M.run]
    rw [if_pos (by omega)]
    exact ih s h.2 hs
  | byte i f ih =>
    intro s h hs
    simp only [M.run]
    split
    · exact ih _ s (h _ (UInt8.toNat_lt _)) hs
    · simp

section
variable {α β : Type} {N : Nat}

theorem most_ret {a : α} : Most N (.ret a) := trivial
theorem most_ub : Most N (.ub : M α) := trivial
theorem most_abort : Most N (.abort : M α) := trivial
theorem most_need {j : Nat} {t : M α} (h : j ≤ N) (ht : Most N t) : Most N (.need j t) := ⟨h, ht⟩
theorem most_byte {i : Nat} {f : Nat → M α} (h : ∀ b, b < 256 → Most N (f b)) : Most N (.byte i f) := h
theorem most_ite {P : Prop} [Decidable P] {a b : M α} (ha : Most N a) (hb : Most N b) : Most N (if P then a else b) := by
  split <;> assumption

theorem most_on {m : M MbRet} {buf : List Nat} {f : MbRet → M α} (h : ∀ r, Most N (f r)) : Most N (m.on buf f) := by
  unfold M.on
  split <;> first | exact h _ | trivial

theorem most_andThen {f : α → M β} (hf : ∀ a, Most N (f a)) : ∀ (m : M α), Most N m → Most N (m.andThen f) := by
  intro m
  induction m with
  | ret a => intro _; exact hf a
  | ub => intro _; trivial
  | abort => intro _; trivial
  | need j t ih => intro h; exact ⟨h.1, ih h.2⟩
  | byte i g ih => intro h b hb; exact ih b (h b hb)

theorem most_shift {j L : Nat} (hl : j + L ≤ N) : ∀ (m : M α), Most L m → Most N (m.shift j) := by
  intro m
  induction m with
  | ret a => intro _; trivial
  | ub => intro _; trivial
  | abort => intro _; trivial
  | need k t ih => intro h; exact ⟨by have := h.1; omega, ih h.2⟩
  | byte i g ih => intro h b hb; exact ih b (h b hb)

theorem most_rdM {t : Tab} {i : Nat} {f : Nat → M α} (h : ∀ v, Most N (f v)) : Most N (t.rdM i f) := by
  unfold Tab.rdM
  split <;> first | exact h _ | trivial

theorem most_inM {o : Outcome α} {f : α → M β} (h : ∀ v, Most N (f v)) : Most N (o.inM f) := by
  unfold Outcome.inM
  split <;> first | exact h _ | trivial

theorem most_jxToM {row col : Nat} {f : Nat → M α} (h : ∀ v, Most N (f v)) : Most N (jxToM row col f) := by
  unfold jxToM
  split <;> first | exact h _ | trivial

theorem most_sOne {b : Nat} {m : M MbRet} {f : Nat → M SItem} (h : ∀ wc, Most N (f wc)) : Most N (sOne m b f) :=
  most_on fun _ => most_ite most_ret (most_ite most_abort (h _))

theorem most_sTwo {b c : Nat} {m : M MbRet} {f : Nat → M SItem} (h : ∀ wc, Most N (f wc)) : Most N (sTwo m b c f) :=
  most_on fun _ => most_ite most_ret (most_ite most_abort (h _))

theorem most_sPair {st : Nat} {m : M MbRet} (h : 2 ≤ N) : Most N (sPair m st) :=
  most_need h <| most_byte fun _ _ => most_byte fun _ _ => most_ite (most_sTwo fun _ => most_ret) most_ret

theorem most_cs {d : CsDec} (h : 2 ≤ N) : Most N d.mbtowc := by
  unfold CsDec.mbtowc
  refine most_byte fun _ _ => ?_
  split
  · trivial
  · refine most_need h (most_byte fun _ _ => ?_)
    split
    · trivial
    · split <;> trivial

end

theorem most_ascii {N : Nat} : Most N ascii_m := by unfold ascii_m; exact most_byte fun _ _ => most_ite most_ret most_ret
theorem most_jisx0201 {N : Nat} : Most N jisx0201_m := by
  unfold jisx0201_m
  refine most_byte fun _ _ => ?_
  repeat' split
  all_goals trivial

/-- Take a program apart. -/
macro "most" : tactic => `(tactic| set_option maxRecDepth 2000 in repeat' (with_reducible first
  | assumption
  | exact most_ascii
  | exact most_jisx0201
  | exact most_ret
  | exact most_ub
  | exact most_abort
  | refine most_sPair ?_
  | refine most_sTwo ?_
  | refine most_sOne ?_
  | refine most_byte ?_
  | refine most_need ?_ ?_
  | refine most_ite ?_ ?_
  | refine most_rdM ?_
  | refine most_jxToM ?_
  | refine most_inM ?_
  | refine most_on ?_
  | refine most_andThen ?_ _ ?_
  | refine most_cs ?_
  | (refine most_shift (L := 2) ?_ _ ?_)
  | intro _
  | omega
  | split
  | dsimp only))

/-! ## Multibyte encodings -/

theorem most_euc_kr : Most 2 euc_kr_mbtowc := by unfold euc_kr_mbtowc; most
theorem most_cp949 : Most 2 cp949_mbtowc := by unfold cp949_mbtowc uhc_1_mbtowc uhc_2_mbtowc; most
theorem most_johab : Most 2 johab_mbtowc := by unfold johab_mbtowc johab_hangul_mbtowc; most
theorem most_euc_jp : Most 3 euc_jp_mbtowc := by unfold euc_jp_mbtowc; most
theorem most_sjis : Most 2 sjis_mbtowc := by unfold sjis_mbtowc; most
theorem most_cp932 : Most 2 cp932_mbtowc := by unfold cp932_mbtowc; most
theorem most_dec_kanji : Most 2 dec_kanji_mbtowc := by unfold dec_kanji_mbtowc; most
theorem most_euc_cn : Most 2 euc_cn_mbtowc := by unfold euc_cn_mbtowc; most
theorem most_gbk {N : Nat} (h : 2 ≤ N) : Most N gbk_mbtowc := by unfold gbk_mbtowc gbk_tail; most
theorem most_ces_gbk : Most 2 ces_gbk_mbtowc := by have := most_gbk (N := 2) (by omega); unfold ces_gbk_mbtowc; most
theorem most_cp936 : Most 2 cp936_mbtowc := by have := most_ces_gbk; unfold cp936_mbtowc; most
theorem most_gb4 {lo hi : Nat} {f : Nat → M MbRet} (h : ∀ i, Most 4 (f i)) : Most 4 (gb4 lo hi f) := by
  unfold gb4; most; exact h _
theorem most_gb_user : Most 4 gb_user := by unfold gb_user; most
theorem most_gb_sup : Most 4 gb_sup := by unfold gb_sup; exact most_gb4 fun _ => by most
theorem most_gb2005_uni : Most 4 gb18030_2005_uni_mbtowc := by
  unfold gb18030_2005_uni_mbtowc; exact most_gb4 fun _ => by unfold gb2005_idx gb_uni; most
theorem most_gb2022_uni : Most 4 gb18030_2022_uni_mbtowc := by
  unfold gb18030_2022_uni_mbtowc; exact most_gb4 fun _ => by unfold gb2022_idx gb_uni; most
theorem most_gb2005 : Most 4 gb18030_2005_mbtowc := by
  have := most_gbk (N := 4) (by omega); have := most_gb_user; have := most_gb_sup; have := most_gb2005_uni
  unfold gb18030_2005_mbtowc gb18030_2005_bmp gb18030_2005_ext_mbtowc; most
theorem most_gb2022 : Most 4 gb18030_2022_mbtowc := by
  have := most_gbk (N := 4) (by omega); have := most_gb_user; have := most_gb_sup; have := most_gb2022_uni
  unfold gb18030_2022_mbtowc gb18030_2022_bmp gb18030_2022_ext_mbtowc; most
theorem most_big5 : Most 2 ces_big5_mbtowc := by unfold ces_big5_mbtowc big5_mbtowc; most
theorem most_cp950 : Most 2 cp950_mbtowc := by
  unfold cp950_mbtowc cp950_big5 cp950_user cp950_tail; most
theorem most_big5_2003 : Most 2 big5_2003_mbtowc := by
  unfold big5_2003_mbtowc big5_2003_big5 big5_2003_user big5_2003_c6; most
theorem most_dec_hanyu : Most 4 dec_hanyu_mbtowc := by unfold dec_hanyu_mbtowc tw_four; most
theorem most_euc_tw : Most 4 euc_tw_mbtowc := by unfold euc_tw_mbtowc tw_four; most
theorem most_isoir165 : Most 2 isoir165_mbtowc := by
  unfold isoir165_mbtowc isoir165_rest isoir165_row2a iso646_cn_m; most

theorem short_simple {idx unit : Nat} {hu : unitOf idx = unit} {D : Decoder} {E : Encoder} (d : SimpleDec D unit) (e : SimpleEnc E)
    {N : Nat} (h : ∀ s k, N ≤ s.length → 1 ≤ N → d.g s ≠ .toofew k) : Short N (simpleEntry idx unit hu d e) := by
  intro is s _ hl hN ha
  have ha : atomOf d.g is s = .more := ha
  unfold atomOf at ha
  split at ha
  · cases ha
  · cases ha
  · next k hk => exact h s k hl hN hk

theorem short_m {m : M MbRet} {N : Nat} (h : Most N m) (idx : Nat) (hu : unitOf idx = 1) (hg : M.Good M.RetOK 1 m)
    {E : Encoder} (e : SimpleEnc E) : Short N (simpleEntry idx 1 hu (M.simple m hg) e) := by
  refine short_simple _ _ fun s k hl hN hk => ?_
  have hk : m.val s = .toofew k := hk
  unfold M.val at hk
  obtain ⟨o, h1, h2⟩ := M.good_run m 1 s hg (by omega)
  rw [h1] at hk
  cases o with
  | none => exact most_run m s h hl h1
  | some a =>
    obtain ⟨j, _, _, h3⟩ := h2 a rfl
    cases hk
    exact h3

/-- The most bytes a sequence of a source encoding has: a character, or a character with a sequence that announces it, or what
the converter looks at to see where it ends. -/
def longest (idx : Nat) : Nat :=
  if idx = ei_java then 12
  else if idx = ei_c99 then 10
  else if idx = ei_utf7 then 6
  else if idx ∈ [ei_gb18030_2005, ei_gb18030_2022, ei_euc_tw, ei_dec_hanyu, ei_utf8, ei_utf16, ei_utf16be,
    ei_utf16le, ei_utf32, ei_utf32be, ei_utf32le, ei_ucs4, ei_ucs4be, ei_ucs4le, ei_ucs4internal, ei_ucs4swapped,
    ei_iso2022_kr, ei_iso2022_cn, ei_iso2022_cn_ext, ei_iso2022_jp1, ei_iso2022_jp2, ei_iso2022_jp3, ei_iso2022_jpms] then 4
  else if idx ∈ [ei_euc_jp, ei_euc_jisx0213, ei_iso2022_jp] then 3
  else if idx ∈ [ei_euc_kr, ei_cp949, ei_johab, ei_sjis, ei_cp932, ei_cp943, ei_dec_kanji, ei_euc_cn, ei_ces_gbk, ei_cp936,
    ei_ces_big5, ei_cp950, ei_big5_2003, ei_big5hkscs1999, ei_big5hkscs2001, ei_big5hkscs2004, ei_big5hkscs2008, ei_isoir165,
    ei_gb2312, ei_ksc5601, ei_jisx0208, ei_jisx0212, ei_shift_jisx0213, ei_ucs2, ei_ucs2be, ei_ucs2le, ei_ucs2internal, ei_ucs2swapped, ei_hz] then 2
  else 1

theorem longest_pos (idx : Nat) : 1 ≤ longest idx := by
  unfold longest
  repeat' split
  all_goals omega

/-- The claim for one encoding. -/
abbrev Fits (A : Entry) : Prop := Short (longest A.idx) A

theorem fits_multi : ∀ r ∈ mbRows, Fits r.entry :=
  all_cons (short_m most_euc_kr _ _ _ _) <| all_cons (short_m most_cp949 _ _ _ _) <|
  all_cons (short_m most_johab _ _ _ _) <| all_cons (short_m most_euc_jp _ _ _ _) <|
  all_cons (short_m most_sjis _ _ _ _) <| all_cons (short_m most_cp932 _ _ _ _) <|
  all_cons (short_m most_cp932 _ _ _ _) <| all_cons (short_m most_dec_kanji _ _ _ _) <|
  all_cons (short_m most_euc_cn _ _ _ _) <| all_cons (short_m most_ces_gbk _ _ _ _) <|
  all_cons (short_m most_cp936 _ _ _ _) <| all_cons (short_m most_gb2022 _ _ _ _) <|
  all_cons (short_m most_big5 _ _ _ _) <| all_cons (short_m most_cp950 _ _ _ _) <|
  all_cons (short_m most_big5_2003 _ _ _ _) <| all_cons (short_m most_dec_hanyu _ _ _ _) <|
  all_cons (short_m most_euc_tw _ _ _ _) <| all_cons (short_m most_isoir165 _ _ _ _) <|
  all_cons (short_m (most_cs (Nat.le_refl _)) _ _ _ _) <| all_cons (short_m (most_cs (Nat.le_refl _)) _ _ _ _) <|
  all_cons (short_m (most_cs (Nat.le_refl _)) _ _ _ _) <| all_cons (short_m (most_cs (Nat.le_refl _)) _ _ _ _) all_nil

/-! ## Single bytes -/

theorem short_single : ∀ r ∈ singleRows, Short 1 r.entry := by
  unfold singleRows plainRows
  simp only [List.cons_append, List.nil_append, List.forall_mem_cons]
  have key : ∀ (g : List Byte → MbRet) (f : Byte → MbRet), (∀ b t, g (b :: t) = f b) →
      (∀ b k, f b ≠ .toofew k) → ∀ s k, 1 ≤ s.length → 1 ≤ 1 → g s ≠ .toofew k := by
    intro g f h1 h2 s k hs _
    cases s with
    | nil => simp at hs
    | cons b t => rw [h1]; exact h2 b k
  refine ⟨?_, ?_, ?_⟩
  · exact short_simple ascii_simple ascii_senc (key _ (fun b => if b.toNat < 0x80 then .char b.toNat 1 else .ilseq 0)
      (fun b t => rfl) (by intro b k; split <;> simp))
  · exact short_simple iso8859_1_simple iso8859_1_senc (key _ (fun b => .char b.toNat 1)
      (fun b t => rfl) (by intro b k; simp))
  · intro r hr
    obtain ⟨e, h, hu, he, _⟩ := sbRows_ok r hr
    rw [he]
    exact short_simple (e.simple h) (e.senc h) (key _
      (fun b => match e.decode b.toNat with | some wc => .char wc 1 | none => .ilseq 0)
      (fun b t => rfl) (by intro b k; split <;> simp))

/-! ## Unicode encodings -/

theorem short_fixed {idx unit : Nat} {hu : unitOf idx = unit} {D : Decoder} {E : Encoder} (d : SimpleDec D unit) (e : SimpleEnc E)
    (w : Nat) (val : List Byte → Option Nat) (h : d.g = fun s => if s.length < w then .toofew 0 else
      match val s with
      | some wc => .char wc w
      | none => .ilseq 0) : Short w (simpleEntry idx unit hu d e) := by
  refine short_simple _ _ fun s k hl _ hk => ?_
  rw [h] at hk
  simp only at hk
  rw [if_neg (by omega)] at hk
  split at hk <;> cases hk

theorem short_utf16 {idx : Nat} {hu : unitOf idx = 2} {D : Decoder} {E : Encoder} (d : SimpleDec D 2) (e : SimpleEnc E)
    (u : List Byte → Nat) (h : d.g = utf16Item u) : Short 4 (simpleEntry idx 2 hu d e) := by
  refine short_simple _ _ fun s k hl _ hk => ?_
  rw [h] at hk
  unfold utf16Item at hk
  rw [if_neg (by omega)] at hk
  split at hk
  · rw [if_neg (by omega)] at hk
    split at hk <;> cases hk
  · split at hk <;> cases hk

theorem short_utf8 : Short 4 utf8_entry := by
  refine short_simple utf8_simple utf8_senc fun s k hl _ hk => ?_
  have hk : utf8Item s = .toofew k := hk
  match s, hl with
  | a :: b :: c :: d :: t, _ =>
    unfold utf8Item at hk
    simp only at hk
    repeat' split at hk
    all_goals cases hk

theorem fits_uni : ∀ A ∈ exactUni, Fits A := by
  unfold exactUni
  simp only [List.forall_mem_cons, List.not_mem_nil, false_implies, implies_true, and_true]
  exact ⟨short_utf8, short_utf16 utf16be_simple utf16be_senc u16be rfl, short_utf16 utf16le_simple utf16le_senc u16le rfl,
    short_fixed utf32be_simple utf32be_senc 4 _ rfl, short_fixed utf32le_simple utf32le_senc 4 _ rfl,
    short_fixed ucs2be_simple ucs2be_senc 2 _ rfl, short_fixed ucs2le_simple ucs2le_senc 2 _ rfl,
    short_fixed ucs2internal_simple ucs2internal_senc 2 _ rfl, short_fixed ucs2swapped_simple ucs2swapped_senc 2 _ rfl,
    short_fixed ucs4be_simple ucs4be_senc 4 (fun s => some (u32be s)) rfl,
    short_fixed ucs4le_simple ucs4le_senc 4 (fun s => some (u32le s)) rfl,
    short_fixed ucs4internal_simple ucs4internal_senc 4 (fun s => some (u32le s)) rfl,
    short_fixed ucs4swapped_simple ucs4swapped_senc 4 (fun s => some (u32be s)) rfl⟩

theorem short_mark {A : Entry} (unit N : Nat) (kind : Nat → List Byte → MarkItem) (hu : unit ≤ N)
    (ha : A.atom = markAtom unit kind) (hb : ∀ st s, N ≤ s.length → kind st s ≠ .brk) : Short N A := by
  intro is s _ hl _ h
  rw [ha] at h
  unfold markAtom at h
  rw [if_neg (by omega)] at h
  split at h <;> first | exact absurd ‹_› (hb _ _ hl) | cases h

theorem short_ucs2 : Short 2 ucs2_entry := short_mark 2 2 ucs2Kind (by omega) rfl fun st s _ => by
  unfold ucs2Kind; repeat' split
  all_goals simp
theorem short_ucs4 : Short 4 ucs4_entry := short_mark 4 4 ucs4Kind (by omega) rfl fun st s _ => by
  unfold ucs4Kind; repeat' split
  all_goals simp
theorem short_utf32 : Short 4 utf32_entry := short_mark 4 4 utf32Kind (by omega) rfl fun st s _ => by
  unfold utf32Kind; repeat' split
  all_goals simp
theorem short_utf16m : Short 4 utf16_entry := short_mark 2 4 utf16Kind (by omega) rfl fun st s h => by
  unfold utf16Kind; repeat' split
  all_goals first | omega | simp

theorem short_comp {A : Entry} (d : CompDec) (ha : A.atom = d.atom) : Short 1 A := by
  intro is s _ hl _ h
  rw [ha] at h
  cases s with
  | nil => simp at hl
  | cons b t =>
    unfold CompDec.atom at h
    simp only at h
    repeat' split at h
    all_goals cases h

/-! ## Encodings with a state -/

theorem satom_more {item : Nat → M SItem} {is : IState} {s : List Byte} {o : Option SItem} (h : (item is.st).run s = .ok o)
    (hm : satom item is s = .more) : o = none := by
  unfold satom at hm
  rw [h] at hm
  cases o with
  | none => rfl
  | some x => cases x <;> cases hm

theorem short_pair {idx : Nat} {hu : unitOf idx = 1} {body : M SItem} {hd : M.Good PairItemOK 1 body} {I : Nat → Prop}
    {comp : Nat → Nat → Option (List Nat)} {last : Nat → List Nat} {base : Nat → Nat → BW} {he : PairGood I comp last base}
    {N : Nat} (h : Most N body) : Short N (pairEntry idx hu hd he) := by
  intro is s _ hl hN ha
  have ha : satom (pairItem body) is s = .more := ha
  obtain ⟨o, h1, _⟩ := M.good_run body 1 s hd (by omega)
  by_cases hs : is.st = 0
  · have e : (pairItem body is.st).run s = .ok o := by unfold pairItem; rw [if_neg (by simpa using hs)]; exact h1
    have := satom_more e ha
    subst this
    exact most_run body s h hl h1
  · have e : (pairItem body is.st).run s = .ok (some (.char is.st 0 0)) := by
      unfold pairItem; rw [if_pos (by simpa using hs)]; rfl
    cases satom_more e ha

theorem most_hkExt {l : List (M MbRet)} (h : ∀ m ∈ l, Most 2 m) : Most 2 (hkExt l) := by
  induction l with
  | nil => exact most_ret
  | cons m l ih =>
    simp only [List.forall_mem_cons] at h
    exact most_andThen (fun _ => most_ite most_ret (ih h.2)) _ h.1

theorem most_hk_body {l : List (M MbRet)} (h : ∀ m ∈ l, Most 2 m) : Most 2 (hk_body l) := by
  have h1 := most_hkExt h
  unfold hk_body hk_mbtowc hk_tail
  most

theorem most_hkd : ∀ m ∈ hk2008_d, Most 2 m := by
  simp only [hk2008_d, List.forall_mem_cons]
  exact ⟨most_cs (by omega), most_cs (by omega), most_cs (by omega), most_cs (by omega), by simp⟩

theorem most_euc_jx : Most 3 (jxBody euc_jx) := by unfold jxBody euc_jx; most
theorem most_sjx : Most 2 (jxBody sjx) := by unfold jxBody sjx; most

theorem short_st {idx : Nat} {hu : unitOf idx = 1} {D : Decoder} {E : Encoder} (d : StDec D) (g : StEnc E) {N : Nat}
    (hp : ∀ st, d.I st → Most N (d.item st)) : Short N (stEntry idx hu d g) := by
  intro is s hI hl hN ha
  have hI : is.bo = 0 ∧ d.I is.st := hI
  have ha : satom d.item is s = .more := ha
  obtain ⟨o, h1, _⟩ := d.run hI.2 (s := s) (by intro h; rw [h] at hl; simp at hl; omega)
  have := satom_more h1 ha
  subst this
  exact most_run _ s (hp _ hI.2) hl h1

theorem short_hz : Short 2 hz_entry := short_st hz_dec hz_enc fun st _ => by
  show Most 2 (hz_item st); unfold hz_item; most
theorem short_kr : Short 4 iso2022_kr_entry := short_st iso2022_kr_dec iso2022_kr_enc fun st _ => by
  show Most 4 (iso2022_kr_item st); unfold iso2022_kr_item; most
theorem short_cn : Short 4 iso2022_cn_entry := short_st iso2022_cn_dec iso2022_cn_enc fun st _ => by
  show Most 4 (iso2022_cn_item st); unfold iso2022_cn_item; most
theorem short_cn_ext : Short 4 iso2022_cn_ext_entry := short_st iso2022_cn_ext_dec iso2022_cn_ext_enc fun st _ => by
  show Most 4 (iso2022_cn_ext_item st); unfold iso2022_cn_ext_item cx_ss3; most
theorem short_jp : Short 3 iso2022_jp_entry := short_st iso2022_jp_dec iso2022_jp_enc fun st _ => by
  show Most 3 (iso2022_jp_item st); unfold iso2022_jp_item; most
theorem short_jp1 : Short 4 iso2022_jp1_entry := short_st iso2022_jp1_dec iso2022_jp1_enc fun st _ => by
  show Most 4 (iso2022_jp1_item st); unfold iso2022_jp1_item; most
theorem short_jp2 : Short 4 iso2022_jp2_entry := short_st iso2022_jp2_dec iso2022_jp2_enc fun st _ => by
  show Most 4 (iso2022_jp2_item st); unfold iso2022_jp2_item jp2_ss2; most
theorem short_jp3 : Short 4 iso2022_jp3_entry := short_st iso2022_jp3_dec iso2022_jp3_enc fun st _ => by
  show Most 4 (iso2022_jp3_item st); unfold iso2022_jp3_item iso2022_jp3_body; most
theorem short_jpms : Short 4 iso2022_jpms_entry := short_st iso2022_jpms_dec iso2022_jpms_enc fun st _ => by
  show Most 4 (iso2022_jpms_item st); unfold iso2022_jpms_item; most

/-- UTF-7: when five base64 characters have been read then the next is the last. -/
theorem most_u7loop {P : Nat → SItem → Prop} : ∀ fuel j wc k kmax bst l, fuel + j = 6 → M.Good P l (u7loop fuel j wc k kmax bst) →
    Most 6 (u7loop fuel j wc k kmax bst) := by
  intro fuel
  induction fuel with
  | zero => intro j wc k kmax bst l _ h; exact h.elim
  | succ fuel ih =>
    have step : ∀ j wc k kmax bst l, fuel + 1 + j = 6 → M.Good P l (.need (j + 2) (u7loop fuel (j + 1) wc k kmax bst)) →
        Most 6 (.need (j + 2) (u7loop fuel (j + 1) wc k kmax bst)) := by
      intro j wc k kmax bst l he hg
      refine most_need ?_ (ih _ _ _ _ _ _ (by omega) hg)
      cases fuel with
      | zero => exact hg.elim
      | succ fuel => omega
    intro j wc k kmax bst l he hg
    unfold u7loop
    refine most_byte fun c hc => ?_
    unfold u7loop at hg
    have hg := hg.2 c hc
    split
    · repeat' split
      all_goals trivial
    · next i hi =>
      simp only [hi] at hg
      simp only
      split
      · next h1 =>
        rw [if_pos h1] at hg
        split
        · next h2 => rw [if_pos h2] at hg; exact step _ _ _ _ _ _ he hg
        · unfold u7fin; most
      · next h1 => rw [if_neg h1] at hg; exact step _ _ _ _ _ _ he hg

theorem short_utf7 : Short 6 utf7_entry := short_st utf7_dec utf7_enc fun st hst => by
  show Most 6 (utf7_item st)
  have hg : M.Good _ _ (utf7_item st) := utf7_dec.good st hst
  unfold utf7_item at hg ⊢
  split
  · next h => rw [if_pos h] at hg; exact most_u7loop _ _ _ _ _ _ _ rfl hg
  · most

theorem most_escLoop {N : Nat} {f : Nat → M MbRet} {bs : M MbRet} (hf : ∀ wc, Most N (f wc)) (hb : Most N bs) :
    ∀ k i wc, i + k ≤ N → Most N (escLoop f bs i k wc) := by
  intro k
  induction k with
  | zero => intro i wc _; exact hf wc
  | succ k ih =>
    intro i wc h
    unfold escLoop
    refine most_need (by omega) (most_byte fun c _ => ?_)
    split
    · exact ih _ _ (by omega)
    · exact hb

theorem most_c99 : Most 10 c99_mbtowc := by
  have hb : Most 10 simplyBackslash := trivial
  unfold c99_mbtowc
  refine most_byte fun _ _ => most_ite (most_ite most_ret (most_need (by omega) (most_byte fun _ _ => ?_))) most_ret
  exact most_ite (most_escLoop (fun _ => most_ite most_ret most_ret) hb _ _ _ (by omega))
    (most_ite (most_escLoop (fun _ => most_ite most_ret most_ret) hb _ _ _ (by omega)) hb)

theorem most_java : Most 12 java_mbtowc := by
  have hb : Most 12 simplyBackslash := trivial
  unfold java_mbtowc
  refine most_byte fun _ _ => most_ite most_ret (most_need (by omega) (most_byte fun _ _ => most_ite hb ?_))
  refine most_escLoop (fun _ => most_ite most_ret (most_ite hb ?_)) hb _ _ _ (by omega)
  refine most_need (by omega) (most_byte fun _ _ => most_ite hb (most_need (by omega) (most_byte fun _ _ => most_ite hb ?_)))
  exact most_escLoop (fun _ => most_ite hb most_ret) hb _ _ _ (by omega)

/-! ## All encodings -/

theorem fits_pairs : ∀ r ∈ pairRows, Fits r.entry :=
  all_cons (short_pair (most_hk_body fun m h => most_hkd m (by simp only [hk1999_d, hk2008_d, List.mem_cons, List.not_mem_nil, or_false] at h ⊢; grind))) <|
  all_cons (short_pair (most_hk_body fun m h => most_hkd m (by simp only [hk2001_d, hk2008_d, List.mem_cons, List.not_mem_nil, or_false] at h ⊢; grind))) <|
  all_cons (short_pair (most_hk_body fun m h => most_hkd m (by simp only [hk2004_d, hk2008_d, List.mem_cons, List.not_mem_nil, or_false] at h ⊢; grind))) <|
  all_cons (short_pair (most_hk_body most_hkd)) <|
  all_cons (short_pair most_euc_jx) <|
  all_cons (short_pair most_sjx) all_nil

theorem fits_shifts : ∀ r ∈ shiftRows, Fits r.entry := by
  simp only [shiftRows, List.forall_mem_cons]
  exact ⟨short_hz, short_kr, short_cn, short_cn_ext, short_jp, short_jp1, short_jp2, short_jp3, short_jpms, short_utf7, by simp⟩

theorem fits_others : ∀ A ∈ otherEntries, Fits A := by
  simp only [otherEntries, List.forall_mem_cons]
  exact ⟨short_ucs2, short_ucs4, short_utf16m, short_utf32, short_m most_c99 _ _ _ _, short_m most_java _ _ _ _,
    short_comp cp1255_d rfl, short_comp cp1258_d rfl, short_comp tcvn_d rfl, by simp⟩

theorem fits_sources : ∀ A ∈ sources, Fits A := by
  intro A hA
  rcases List.mem_cons.1 hA with rfl | hA
  · exact short_m most_gb2005 _ _ _ _
  · cases targets_kinds A hA with
    | single r h e => subst e; exact (short_single r h).mono (Nat.le_refl _) (longest_pos _)
    | multi r h e => subst e; exact fits_multi r h
    | uni h => exact fits_uni A h
    | pair r h e => subst e; exact fits_pairs r h
    | shift r h e => subst e; exact fits_shifts r h
    | other h => exact fits_others A h

end Skip

end Reiconv
