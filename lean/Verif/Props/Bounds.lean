import Verif.Codec.Caps

/-!
# C46 (output size bounds) for every registered encoding
-/

namespace Reiconv

/-! ## The figures -/

/-- For the encodings whose characters take more than one byte: the encoding number, the greatest number of bytes
for one character, and the greatest number of further bytes (byte order mark, final shift sequence). An escape
sequence is counted with the character that follows it. -/
def writeTab : List (Nat × Nat × Nat) :=
  [(ei_utf8, 4, 0), (ei_ucs2, 2, 0), (ei_ucs2be, 2, 0), (ei_ucs2le, 2, 0), (ei_ucs4, 4, 0), (ei_ucs4be, 4, 0),
   (ei_ucs4le, 4, 0), (ei_utf16, 4, 2), (ei_utf16be, 4, 0), (ei_utf16le, 4, 0), (ei_utf32, 4, 4), (ei_utf32be, 4, 0),
   (ei_utf32le, 4, 0), (ei_utf7, 6, 2), (ei_ucs2internal, 2, 0), (ei_ucs2swapped, 2, 0), (ei_ucs4internal, 4, 0),
   (ei_ucs4swapped, 4, 0), (ei_c99, 10, 0), (ei_java, 12, 0), (ei_euc_jp, 3, 0), (ei_sjis, 2, 0), (ei_cp932, 2, 0),
   (ei_iso2022_jp, 5, 3), (ei_iso2022_jp1, 6, 3), (ei_iso2022_jp2, 6, 3), (ei_iso2022_jpms, 6, 3), (ei_euc_cn, 2, 0),
   (ei_ces_gbk, 2, 0), (ei_cp936, 2, 0), (ei_gb18030_2022, 4, 0), (ei_iso2022_cn, 8, 1), (ei_iso2022_cn_ext, 8, 1),
   (ei_hz, 4, 2), (ei_euc_tw, 4, 0), (ei_ces_big5, 2, 0), (ei_cp950, 2, 0), (ei_big5hkscs1999, 2, 0),
   (ei_big5hkscs2001, 2, 0), (ei_big5hkscs2004, 2, 0), (ei_big5hkscs2008, 2, 0), (ei_euc_kr, 2, 0), (ei_cp949, 2, 0),
   (ei_johab, 2, 0), (ei_iso2022_kr, 7, 1), (ei_dec_kanji, 2, 0), (ei_dec_hanyu, 4, 0), (ei_cp1255, 3, 0),
   (ei_cp1258, 2, 0), (ei_tcvn, 2, 0), (ei_jisx0208, 2, 0), (ei_jisx0212, 2, 0), (ei_gb2312, 2, 0),
   (ei_isoir165, 2, 0), (ei_ksc5601, 2, 0), (ei_cp943, 2, 0), (ei_euc_jisx0213, 3, 0), (ei_shift_jisx0213, 2, 0),
   (ei_iso2022_jp3, 6, 3), (ei_big5_2003, 2, 0)]

/-- Greatest number of bytes for one character and of further bytes, when writing encoding number `i`. -/
def writeMax (i : Nat) : Nat × Nat :=
  match writeTab.find? (·.1 == i) with
  | some x => x.2
  | none => (1, 0)

/-- Least number of bytes of one character, when reading encoding number `i`. -/
def readMin (i : Nat) : Nat :=
  if i ∈ [ei_ucs2, ei_ucs2be, ei_ucs2le, ei_ucs2internal, ei_ucs2swapped, ei_utf16, ei_utf16be, ei_utf16le] then 2
  else if i ∈ [ei_ucs4, ei_ucs4be, ei_ucs4le, ei_ucs4internal, ei_ucs4swapped, ei_utf32, ei_utf32be, ei_utf32le] then 4
  else 1

/-! ## Writing -/

/-- The figures of `writeMax` are right for `B`. -/
def Entry.MaxOK (B : Entry) : Prop := B.MaxOut (writeMax B.idx).1 (writeMax B.idx).2

theorem Entry.MaxOut.ok {B : Entry} {K T : Nat} (h : B.MaxOut K T) (e : writeMax B.idx = (K, T)) : B.MaxOK := by
  unfold Entry.MaxOK; rw [e]; exact h

theorem single_idx : ∀ r ∈ singleRows, writeMax r.entry.idx = (1, 0) := by decide +kernel

theorem single_max : ∀ r ∈ singleRows, r.entry.MaxOK := by
  intro r hr
  refine Entry.MaxOut.ok ?_ (single_idx r hr)
  rcases List.mem_append.1 hr with h | h
  · simp only [plainRows, List.mem_cons, List.not_mem_nil, or_false] at h
    rcases h with rfl | rfl
    · exact outBounds_ok _ (List.mem_of_getElem? (i := 0) rfl)
    · exact outBounds_ok _ (List.mem_of_getElem? (i := 1) rfl)
  · exact (sbRows_bounds r h).2

theorem uni_in : ∀ B ∈ exactUni, ∃ x ∈ outBounds, x.1 = B ∧ writeMax B.idx = x.2 := by
  unfold exactUni
  simp only [List.forall_mem_cons, List.not_mem_nil, false_implies, implies_true, and_true]
  refine ⟨?_, ?_, ?_, ?_, ?_, ?_, ?_, ?_, ?_, ?_, ?_, ?_, ?_⟩
  · exact ⟨_, List.mem_of_getElem? (i := 2) rfl, rfl, rfl⟩
  · exact ⟨_, List.mem_of_getElem? (i := 9) rfl, rfl, rfl⟩
  · exact ⟨_, List.mem_of_getElem? (i := 10) rfl, rfl, rfl⟩
  · exact ⟨_, List.mem_of_getElem? (i := 17) rfl, rfl, rfl⟩
  · exact ⟨_, List.mem_of_getElem? (i := 18) rfl, rfl, rfl⟩
  · exact ⟨_, List.mem_of_getElem? (i := 4) rfl, rfl, rfl⟩
  · exact ⟨_, List.mem_of_getElem? (i := 5) rfl, rfl, rfl⟩
  · exact ⟨_, List.mem_of_getElem? (i := 6) rfl, rfl, rfl⟩
  · exact ⟨_, List.mem_of_getElem? (i := 7) rfl, rfl, rfl⟩
  · exact ⟨_, List.mem_of_getElem? (i := 12) rfl, rfl, rfl⟩
  · exact ⟨_, List.mem_of_getElem? (i := 13) rfl, rfl, rfl⟩
  · exact ⟨_, List.mem_of_getElem? (i := 14) rfl, rfl, rfl⟩
  · exact ⟨_, List.mem_of_getElem? (i := 15) rfl, rfl, rfl⟩

theorem uni_max : ∀ B ∈ exactUni, B.MaxOK := by
  intro B hB
  obtain ⟨⟨B', K, T⟩, h1, rfl, h2⟩ := uni_in B hB
  exact Entry.MaxOut.ok (outBounds_ok _ h1) h2

theorem mb_max {idx : Nat} {hu : unitOf idx = 1} {m : M MbRet} {hg : M.Good M.RetOK 1 m} {w : Nat → W}
    {hwg : ∀ wc, W.Good 0 (w wc)} {K : Nat} (h : ∀ wc, (w wc).Cap K) (hk : writeMax idx = (K, 0)) :
    (simpleEntry idx 1 hu (M.simple m hg) (W.senc w hwg)).MaxOK :=
  Entry.MaxOut.ok (maxOut_simple (B := simpleEntry idx 1 hu (M.simple m hg) (W.senc w hwg)) (W.senc w hwg)
    fun wc bs hb => h wc bs hb) hk

theorem multi_max : ∀ r ∈ mbRows, r.entry.MaxOK :=
  all_cons (mb_max euc_kr_cap rfl) <| all_cons (mb_max cp949_cap rfl) <| all_cons (mb_max johab_cap rfl) <|
  all_cons (mb_max euc_jp_cap rfl) <| all_cons (mb_max sjis_cap rfl) <| all_cons (mb_max cp932_cap rfl) <|
  all_cons (mb_max cp932_cap rfl) <| all_cons (mb_max dec_kanji_cap rfl) <| all_cons (mb_max euc_cn_cap rfl) <|
  all_cons (mb_max ces_gbk_cap rfl) <| all_cons (mb_max cp936_cap rfl) <| all_cons (mb_max gb18030_2022_cap rfl) <|
  all_cons (mb_max ces_big5_cap rfl) <| all_cons (mb_max cp950_cap rfl) <| all_cons (mb_max big5_2003_cap rfl) <|
  all_cons (mb_max dec_hanyu_cap rfl) <| all_cons (mb_max euc_tw_cap rfl) <| all_cons (mb_max isoir165_cap rfl) <|
  all_cons (mb_max (fun _ => W.Cap.cs (Nat.le_refl 2)) rfl) <| all_cons (mb_max (fun _ => W.Cap.cs (Nat.le_refl 2)) rfl) <|
  all_cons (mb_max (fun _ => W.Cap.cs (Nat.le_refl 2)) rfl) <| all_cons (mb_max (fun _ => W.Cap.cs (Nat.le_refl 2)) rfl) all_nil

theorem pair_max {idx : Nat} {hu : unitOf idx = 1} {body : M SItem} {hd : M.Good PairItemOK 1 body} {I : Nat → Prop}
    {comp : Nat → Nat → Option (List Nat)} {last : Nat → List Nat} {base : Nat → Nat → BW} {he : PairGood I comp last base}
    {m : M MbRet} {w : Nat → W} {hold : Nat → Nat} {C : List (List Byte × Nat × Nat)} {K : Nat}
    (h : PairRel body comp last base m w hold C) (hw : ∀ wc, (w wc).Cap K) (h2 : 2 ≤ K) (hk : writeMax idx = (K, 0)) :
    (pairEntry idx hu hd he).MaxOK := by
  refine Entry.MaxOut.ok (K := K) (T := 0) ⟨fun os => if os = 0 then 0 else 2, rfl, ?_, ?_⟩ hk
  · intro os wc bs os' hI hf
    have hf : (bencoder (pairProg comp last base) (pairTail last)).full os wc = some (bs, os') := hf
    rw [(pairEncSt he).full_eq hI] at hf
    have hf : (pairProg comp last base os wc).res [] = some (bs, os') := hf
    have key : ∀ c acc, c = 0 ∨ c = 2 → (base c wc).res acc = some (bs, os') →
        bs.length + (if os' = 0 then 0 else 2) ≤ K + acc.length := by
      intro c acc hc hr
      rw [h.enc1 c wc acc hc] at hr
      cases hx : (w wc).res with
      | none => rw [hx] at hr; cases hr
      | some b =>
        rw [hx] at hr
        have := hw wc b hx
        simp only at hr
        by_cases h0 : hold wc = 0
        · rw [if_pos h0] at hr; cases hr; rw [if_pos rfl, List.length_append]; omega
        · rw [if_neg h0] at hr; cases hr; rw [if_neg h0]; omega
    unfold pairProg at hf
    show bs.length + (if os' = 0 then 0 else 2) ≤ K + (if os = 0 then 0 else 2)
    by_cases ho : os = 0
    · rw [if_neg (not_not_intro ho)] at hf
      have := key 0 [] (.inl rfl) hf
      rw [if_pos ho]
      simpa using this
    · rw [if_pos ho] at hf
      rw [if_neg ho]
      cases hc : comp os wc with
      | some b =>
        rw [hc] at hf
        have hl := he.comp os wc b hI hc
        have hf : some (([] : List Byte) ++ b.map u8, 0) = some (bs, os') := hf
        cases hf
        rw [if_pos rfl, List.nil_append, List.length_map]; omega
      | none =>
        rw [hc] at hf
        have hf : (base 2 wc).res ([] ++ (last os).map u8) = some (bs, os') := hf
        have := key 2 _ (.inr rfl) hf
        rwa [List.nil_append, List.length_map, he.last os] at this
  · intro os hI
    have ht : (pairEntry idx hu hd he).enc.tail os = (pairTail last os).map u8 := (pairEncSt he).tail_eq hI (by simp [bencoder])
    rw [ht, List.length_map]
    show (pairTail last os).length ≤ if os = 0 then 0 else 2
    unfold pairTail
    by_cases ho : os = 0
    · rw [if_neg (not_not_intro ho)]; simp
    · rw [if_pos ho, if_neg ho, he.last os]; exact Nat.le_refl 2

theorem pairs_max : ∀ r ∈ pairRows, r.entry.MaxOK :=
  all_cons (pair_max (hk_rel hk1999_two hk1999_dgood hk1999_pairs) (fun _ => hk_cap _) (by decide) rfl) <|
  all_cons (pair_max (hk_rel hk2001_two hk2001_dgood hk2001_pairs) (fun _ => hk_cap _) (by decide) rfl) <|
  all_cons (pair_max (hk_rel hk2004_two hk2004_dgood hk2004_pairs) (fun _ => hk_cap _) (by decide) rfl) <|
  all_cons (pair_max (hk_rel hk2008_two hk2008_dgood hk2008_pairs) (fun _ => hk_cap _) (by decide) rfl) <|
  all_cons (pair_max (euc_jx_rel euc_jx_ok) euc_jx_cap (by decide) rfl) <|
  all_cons (pair_max (sjx_rel sjx_ok) sjx_cap (by decide) rfl) all_nil

/-- Encoders with shift states: at most `K` bytes for each character, at most `T` at the end. -/
theorem st_max {idx : Nat} {hu : unitOf idx = 1} {D : Decoder} {E : Encoder} {d : StDec D} {e : StEnc E} {K T : Nat}
    (hr : E.reset ≠ none) (h : ∀ os wc bs os', e.I os → e.enc os wc = some (bs, os') → bs.length ≤ K)
    (ht : ∀ os, e.I os → (e.rtail os).length ≤ T) (hk : writeMax idx = (K, T)) : (stEntry idx hu d e).MaxOK := by
  refine Entry.MaxOut.ok (K := K) (T := T) ⟨fun _ => T, rfl, ?_, ?_⟩ hk
  · intro os wc bs os' hI hf
    have hf : E.full os wc = some (bs, os') := hf
    rw [e.full_eq hI] at hf
    exact Nat.add_le_add_right (h os wc bs os' hI hf) T
  · intro os hI
    have he : (stEntry idx hu d e).enc.tail os = e.rtail os := e.tail_eq hI hr
    rw [he]
    exact ht os hI

theorem sw_max {idx : Nat} {hu : unitOf idx = 1} {D : Decoder} {d : StDec D} {w : Nat → Nat → SW} {rt : Nat → List Nat}
    {I : Nat → Prop} {h0 : I 0} {hg : ∀ os wc, I os → SW.Good I 0 (w os wc)} {hr : ∀ os, I os → (rt os).length ≤ 64}
    {K T : Nat} (h : ∀ os wc, (w os wc).Cap K) (ht : ∀ os, (rt os).length ≤ T) (hk : writeMax idx = (K, T)) :
    (stEntry idx hu d (SW.toSt h0 hg hr)).MaxOK :=
  st_max (e := SW.toSt h0 hg hr) (by simp [sencoder]) (fun os wc bs os' _ he => h os wc bs os' he)
    (fun os _ => by show ((rt os).map u8).length ≤ T; rw [List.length_map]; exact ht os) hk

theorem u7leave_le (os : Nat) (m : Bool) : (u7leave os m).length ≤ 2 := by
  rw [u7leave_len]
  (repeat' split) <;> omega

theorem utf7_max : utf7_entry.MaxOK := by
  refine st_max (e := utf7_enc) (by simp [utf7_encoder]) ?_ ?_ rfl
  · intro os wc bs os' hI he
    have he : (u7enc os wc).map (fun (x : List Nat × Nat) => (x.1.map u8, x.2)) = some (bs, os') := he
    have key : ∀ x, u7enc os wc = some x → x.1.length ≤ 6 := by
      intro x hx
      unfold u7enc at hx
      have h1 : (u7body 1 wc).1.length ≤ 5 := by rw [u7body_len]; split <;> simp
      have h2 : (u7body os wc).1.length ≤ 6 := by rw [u7body_len]; (repeat' split) <;> simp
      split at hx
      · cases hx
        rw [List.length_append]
        show _ + 1 ≤ 6
        have := u7leave_le os (u7_isxbase64 wc)
        split
        · simp
        · omega
      · split at hx
        · cases hx; simp
        · split at hx
          · split at hx
            · cases hx
              simp only [List.length_cons, List.length_map]
              omega
            · cases hx
              simp only [List.length_map]
              omega
          · cases hx
    cases hx : u7enc os wc with
    | none => rw [hx] at he; cases he
    | some x =>
      rw [hx] at he; cases he
      rw [List.length_map]; exact key x hx
  · intro os _
    show List.length _ ≤ 2
    unfold utf7_enc
    dsimp only
    rw [List.length_map]
    split
    · simp
    · exact u7leave_le _ _

/-- What is owed in a state of the encoder of ISO-2022-JP-3: the bytes held back and the final escape sequence. -/
def jp3Due (os : Nat) : Nat := 3 + if jp3Last os ≠ 0 then (if jp3Prev os ≠ jp3State os then 5 else 2) else 0

theorem jp3Due_le (os : Nat) : jp3Due os ≤ 8 := by unfold jp3Due; (repeat' split) <;> omega

theorem jp3Due_join {k last : Nat} (hk : k ≤ 5) (hl : last < 65536) : jp3Due (jp3Join k last k) ≤ 5 := by
  have e := jp3Join_eq (st := k) (last := last) (prev := k) (by omega) hl
  have : jp3Prev (jp3Join k last k) = jp3State (jp3Join k last k) := by
    rw [e]
    unfold jp3Prev jp3State
    rw [and7, Nat.shiftRight_eq_div_pow]
    have h1 : (524288 * k + 8 * last + k) / 2 ^ 19 = k :=
      (Nat.div_eq_iff (by decide)).2 ⟨by omega, by omega⟩
    have h2 : (524288 * k + 8 * last + k) % 8 = k := by omega
    rw [h1, h2]
  unfold jp3Due
  rw [if_neg (not_not_intro this)]
  split <;> omega

theorem jp3One_cap {c st k f b : Nat} (hk : jp3Due k = 3) : (jp3One c st k f b).Cap jp3Due 9 :=
  .room (.store (J := 3) (.done (by omega)) (by
    rw [List.length_append]
    have : (if st ≠ k then [0x1b, 0x28, f] else []).length ≤ 3 := ite_nil_len
    simp only [List.length_singleton]; omega))

theorem jp3Put_cap {c k d : Nat} (hk : k ≤ 5) (h0 : jp3Due k = 3) : (jp3Put c k d).Cap jp3Due 5 := by
  refine .ite (.ite .abort (.done (jp3Due_join hk ?_))) (.room (.store (J := 3) (.done (by omega)) (by simp)))
  have := Nat.and_le_right (n := d) (m := 0x7f7f); omega

theorem BW.Cap.mono {p : Nat → Nat} {K L : Nat} {w : BW} (h : w.Cap p K) (hl : K ≤ L) : w.Cap p L :=
  fun acc bs st hr => Nat.le_trans (h acc bs st hr) (by omega)

theorem jp3Plane_cap {c st k f d : Nat} (hk : k ≤ 5) (h0 : jp3Due k = 3) : (jp3Plane c st k f d).Cap jp3Due 9 :=
  .ite (.room (.store (J := 5) (jp3Put_cap hk h0) (by simp))) ((jp3Put_cap hk h0).mono (by omega))

theorem jp3_base_cap (c st wc : Nat) : (jp3_base c st wc).Cap jp3Due 9 := by
  unfold jp3_base
  rw [jxFromB_eq]
  refine .try1 (fun _ => jp3One_cap (by decide)) <| .try1 (fun _ => jp3One_cap (by decide)) <|
    .try2 (fun _ _ => .ite (.done ?_) (.room (.store (J := 3) (.done (by decide)) ?_))) <|
    .ite (.ite (jp3Plane_cap (by decide) (by decide)) (jp3Plane_cap (by decide) (by decide)))
      (.try1 (fun _ => jp3One_cap (by decide)) .iluni)
  · exact Nat.le_trans (jp3Due_le _) (by decide)
  · rw [List.length_append]
    exact Nat.le_trans (Nat.add_le_add_right (Nat.add_le_add_right ite_nil_len _) _) (Nat.le_of_ble_eq_true rfl)

theorem jp3_max : iso2022_jp3_entry.MaxOK := by
  refine Entry.MaxOut.ok (K := 6) (T := 3) ⟨jp3Due, rfl, ?_, ?_⟩ rfl
  · intro os wc bs os' hI hf
    have hI : jp3EI os := hI
    have hf : iso2022_jp3_encoder.full os wc = some (bs, os') := hf
    rw [iso2022_jp3_enc.full_eq hI] at hf
    have hf : (iso2022_jp3_wctomb os wc).res [] = some (bs, os') := hf
    have key : (iso2022_jp3_wctomb os wc).Cap jp3Due (6 + jp3Due os) := by
      unfold iso2022_jp3_wctomb
      by_cases hl : jp3Last os ≠ 0
      · rw [if_pos hl]
        have e : jp3Due os = 3 + if jp3Prev os ≠ jp3State os then 5 else 2 := by unfold jp3Due; rw [if_pos hl]
        cases hc : jxCompose jp3Comp (jp3Last os) wc with
        | some b =>
          have hb := jxCompose_len hc
          refine .room (.store (J := 3) (.done (by decide)) ?_)
          have h4 : (if jp3State os ≠ 4 then [0x1b, 0x24, 0x28, 0x51] else []).length ≤ 4 := ite_nil_len
          rw [List.length_append, hb, e]
          by_cases hp : jp3Prev os ≠ jp3State os
          · rw [if_pos hp]; omega
          · rw [if_neg hp]; omega
        | none =>
          refine .room ?_
          by_cases hp : jp3Prev os ≠ jp3State os
          · rw [if_pos hp, e, if_pos hp]
            exact .ite .abort (.store (J := 11) (.store (jp3_base_cap _ _ _) (by simp [jxLast])) (by simp))
          · rw [if_neg hp, e, if_neg hp]
            exact .store (jp3_base_cap _ _ _) (by simp [jxLast])
      · rw [if_neg hl]
        have e : jp3Due os = 3 := by unfold jp3Due; rw [if_neg hl]
        rw [e]
        exact jp3_base_cap _ _ _
    simpa using key [] bs os' hf
  · intro os hI
    have hI : jp3EI os := hI
    have he : iso2022_jp3_entry.enc.tail os = (iso2022_jp3_tail os).map u8 :=
      iso2022_jp3_enc.tail_eq hI (by simp [iso2022_jp3_encoder])
    rw [he, List.length_map]
    unfold iso2022_jp3_tail jp3Due jxLast
    repeat' split
    all_goals simp

theorem shift_max : ∀ r ∈ shiftRows, r.entry.MaxOK :=
  all_cons (sw_max hz_cap (fun _ => ite_nil_len) rfl) <|
  all_cons (sw_max iso2022_kr_cap (fun _ => ite_nil_len) rfl) <|
  all_cons (sw_max iso2022_cn_cap (fun _ => ite_nil_len) rfl) <|
  all_cons (sw_max iso2022_cn_ext_cap (fun _ => ite_nil_len) rfl) <|
  all_cons (sw_max iso2022_jp_cap (fun _ => ite_nil_len) rfl) <|
  all_cons (sw_max iso2022_jp1_cap (fun _ => ite_nil_len) rfl) <|
  all_cons (st_max (e := iso2022_jp2_enc) (by simp [iso2022_jp2_encoder, sencoder]) (fun os wc bs os' _ he => iso2022_jp2_cap os wc bs os' he)
    (fun os _ => by show (List.map u8 _).length ≤ 3; rw [List.length_map]; exact ite_nil_len) rfl) <|
  all_cons jp3_max <|
  all_cons (sw_max iso2022_jpms_cap (fun _ => ite_nil_len) rfl) <|
  all_cons utf7_max all_nil

theorem comp_full {e : CompEnc} (h : e.Ok) {K : Nat} (hk : ∀ r ∈ e.rows, 1 + r.2.2.length ≤ K) (h1 : 1 ≤ K) {wc : Nat} {bs : List Byte}
    (hb : (e.senc h).enc wc = some bs) : bs.length ≤ K := by
  have he : e.wctomb 0 wc 64 = .ok (.put bs 0) := by
    have h1 := (e.senc h).eq 0 wc 64
    have hw : e.enc.wctomb 0 wc 64 = e.wctomb 0 wc 64 := rfl
    rw [hw, if_pos ((e.senc h).need_le wc), hb] at h1
    exact h1
  unfold CompEnc.wctomb at he
  simp only [(sbEncode_fast h.rules wc).1, Outcome.bind_ok] at he
  cases hc : ofCode (encF e.er wc) with
  | some b =>
    rw [hc] at he
    have he : Outcome.ok (WcRes.put [u8 b] 0) = .ok (.put bs 0) := he
    simp only [Outcome.ok.injEq, WcRes.put, WcRes.mk.injEq] at he
    rw [← he.2.1]; exact h1
  | none =>
    rw [hc] at he
    obtain ⟨x, hx, he⟩ := bind_ok_inv he
    cases x with
    | none => cases he
    | some i =>
      obtain ⟨r, hr, he⟩ := bind_ok_inv he
      obtain ⟨c, hc, he⟩ := bind_ok_inv he
      have hm : r ∈ e.rows := by
        unfold rowAt at hr
        split at hr
        · next hi => cases hr; exact List.mem_of_getElem? hi
        · cases hr
      have h3 := h.each r hm
      cases c with
      | none => cases he
      | some c =>
        obtain ⟨cb, h7, h8⟩ := combBytes_ok h3.2.2
        dsimp only at he
        split at he
        · cases he
        · rw [h7] at he
          have he : Outcome.ok (WcRes.put (u8 c :: cb) 0) = .ok (.put bs 0) := he
          simp only [Outcome.ok.injEq, WcRes.put, WcRes.mk.injEq] at he
          have := hk r hm
          rw [← he.2.1, List.length_cons, h8]; omega

theorem comp_max {idx : Nat} {hu : unitOf idx = 1} {d : CompDec} {hd : d.Ok} {e : CompEnc} {he : e.Ok} {K : Nat}
    (hk : ∀ r ∈ e.rows, 1 + r.2.2.length ≤ K) (h1 : 1 ≤ K) (hw : writeMax idx = (K, 0)) : (compEntry idx hu d hd e he).MaxOK :=
  Entry.MaxOut.ok (maxOut_simple (B := compEntry idx hu d hd e he) (e.senc he) fun _ _ hb => comp_full he hk h1 hb) hw

theorem c99Str_len (wc : Nat) : (c99Str wc).length ≤ 10 := by
  unfold c99Str
  repeat' split
  all_goals simp [hexStr_length]
theorem javaStr_len (wc : Nat) : (javaStr wc).length ≤ 12 := by
  unfold javaStr
  repeat' split
  all_goals simp [hexStr_length]

theorem other_max : ∀ B ∈ otherEntries, B.MaxOK :=
  all_cons ((outBounds_ok _ (List.mem_of_getElem? (i := 3) rfl)).ok rfl) <|
  all_cons ((outBounds_ok _ (List.mem_of_getElem? (i := 11) rfl)).ok rfl) <|
  all_cons ((outBounds_ok _ (List.mem_of_getElem? (i := 8) rfl)).ok rfl) <|
  all_cons ((outBounds_ok _ (List.mem_of_getElem? (i := 16) rfl)).ok rfl) <|
  all_cons ((maxOut_simple (B := c99_entry) c99_senc fun wc _ h => by cases h; exact c99Str_len wc).ok rfl) <|
  all_cons ((maxOut_simple (B := java_entry) java_senc fun wc _ h => ite_len (javaStr_len wc) h).ok rfl) <|
  all_cons (comp_max (by decide +kernel) (by decide) rfl) <|
  all_cons (comp_max (by decide +kernel) (by decide) rfl) <|
  all_cons (comp_max (by decide +kernel) (by decide) rfl) all_nil

theorem targets_max : ∀ B ∈ targets, B.MaxOK := by
  intro B hB
  cases targets_kinds B hB with
  | single r h e => exact e ▸ single_max r h
  | multi r h e => exact e ▸ multi_max r h
  | uni h => exact uni_max B h
  | pair r h e => exact e ▸ pairs_max r h
  | shift r h e => exact e ▸ shift_max r h
  | other h => exact other_max B h

/-! ## Reading -/

/-- The figure of `readMin` is right for `A`. -/
def Entry.MinOK (A : Entry) : Prop := A.MinIn (readMin A.idx)

theorem Entry.MinIn.ok {A : Entry} {u : Nat} (h : A.MinIn u) (e : readMin A.idx = u) : A.MinOK := by
  unfold Entry.MinOK; rw [e]; exact h

/-- Decoders that hold nothing back: every character has at least one byte. -/
theorem minIn_plain {A : Entry} (hp : ∀ is s wc n is', A.decOK.Inv is → s ≠ [] → A.atom is s = .char wc n is' → 1 ≤ n)
    (hf : A.dec.flushwc = none) : A.MinIn 1 := by
  refine ⟨fun _ => 0, rfl, fun is s wc n is' hI hs ha => hp is s wc n is' hI hs ha, fun _ _ _ _ _ _ _ => Nat.zero_le _, ?_⟩
  intro is _; simp [Decoder.kept, hf]

theorem minIn_nopend {A : Entry} (hp : ∀ st, A.decOK.pend st = false) (hf : A.dec.flushwc = none) : A.MinIn 1 := by
  refine minIn_plain (fun is s wc n is' hI hs ha => ?_) hf
  obtain ⟨_, _, h⟩ := A.decOK.char_ok is s wc n is' hI hs ha
  rcases Nat.eq_zero_or_pos n with h0 | h0
  · have := (h h0).1; rw [hp] at this; cases this
  · exact h0

/-- Every value returned satisfies `P`. -/
def M.All {α : Type} (P : α → Prop) : M α → Prop
  | .ret a => P a
  | .ub => True
  | .abort => True
  | .need _ t => t.All P
  | .byte _ f => ∀ c, (f c).All P

theorem M.all_run {α : Type} {P : α → Prop} : ∀ {m : M α} {s : List Byte} {a : α}, m.All P → m.run s = .ok (some a) → P a
  | .ret _, _, _, h, hr => by cases hr; exact h
  | .ub, _, _, _, hr => nomatch hr
  | .abort, _, _, _, hr => nomatch hr
  | .need k t, s, a, h, hr => by
    unfold M.run at hr
    split at hr
    · exact M.all_run (m := t) h hr
    · cases hr
  | .byte i f, s, a, h, hr => by
    unfold M.run at hr
    split at hr
    · exact M.all_run (h _) hr
    · cases hr

theorem M.all_ite {α : Type} {P : α → Prop} {Q : Prop} [Decidable Q] {a b : M α} (h1 : a.All P) (h2 : b.All P) :
    (if Q then a else b).All P := by
  split
  · exact h1
  · exact h2

/-- The characters of the item have a byte. -/
def SItem.Eats : SItem → Prop
  | .char _ n _ => 1 ≤ n
  | _ => True

theorem u7loop_eats : ∀ fuel j wc k kmax bst, (u7loop fuel j wc k kmax bst).All SItem.Eats
  | 0, _, _, _, _, _ => trivial
  | fuel + 1, j, wc, k, kmax, bst => by
    intro c
    show (match u7val c with | none => _ | some i => _ : M SItem).All SItem.Eats
    cases u7val c with
    | none => exact M.all_ite trivial (M.all_ite trivial (M.all_ite trivial trivial))
    | some i =>
      dsimp only
      refine M.all_ite (M.all_ite (u7loop_eats fuel _ _ _ _ _) ?_) (u7loop_eats fuel _ _ _ _ _)
      unfold u7fin
      exact M.all_ite trivial (M.all_ite (M.all_ite trivial (M.all_ite trivial (Nat.le_add_left 1 j))) (Nat.le_add_left 1 j))

theorem utf7_eats (st : Nat) : (utf7_item st).All SItem.Eats :=
  M.all_ite (u7loop_eats _ _ _ _ _ _) fun _ => M.all_ite (Nat.le_refl 1)
    (M.all_ite (fun _ => M.all_ite (Nat.le_add_left 1 1) trivial) trivial)

theorem satom_char {item : Nat → M SItem} {is is' : IState} {s : List Byte} {wc n : Nat}
    (h : satom item is s = .char wc n is') : ∃ st, (item is.st).run s = .ok (some (.char wc n st)) ∧ is' = { is with st := st } := by
  unfold satom at h
  split at h
  · next hr => cases h; exact ⟨_, hr, rfl⟩
  · cases h
  · cases h
  · cases h

theorem satom_shift {item : Nat → M SItem} {is is' : IState} {s : List Byte} {n : Nat}
    (h : satom item is s = .shift n is') : ∃ st, (item is.st).run s = .ok (some (.shift n st)) ∧ is' = { is with st := st } := by
  unfold satom at h
  split at h
  · cases h
  · next hr => cases h; exact ⟨_, hr, rfl⟩
  · cases h
  · cases h

theorem utf7_min : utf7_entry.MinOK := by
  refine Entry.MinIn.ok (minIn_plain (fun is s wc n is' _ _ ha => ?_) rfl) rfl
  obtain ⟨st, hr, _⟩ := satom_char (item := utf7_item) ha
  exact M.all_run (P := SItem.Eats) (utf7_eats is.st) hr

theorem pair_min {idx : Nat} {hu : unitOf idx = 1} {body : M SItem} {hd : M.Good PairItemOK 1 body} {I : Nat → Prop}
    {comp : Nat → Nat → Option (List Nat)} {last : Nat → List Nat} {base : Nat → Nat → BW} {he : PairGood I comp last base}
    {m : M MbRet} {w : Nat → W} {hold : Nat → Nat} {C : List (List Byte × Nat × Nat)}
    (h : PairRel body comp last base m w hold C) (hC : ∀ x ∈ C, 2 ≤ x.1.length) (hk : readMin idx = 1) :
    (pairEntry idx hu hd he).MinOK := by
  refine Entry.MinIn.ok (u := 1) ⟨fun is => if is.st ≠ 0 then 1 else 0, rfl, ?_, ?_, ?_⟩ hk
  · intro is s wc n is' hI hs ha
    obtain ⟨st, hr, rfl⟩ := satom_char (item := pairItem body) ha
    show 1 + (if st ≠ 0 then 1 else 0) ≤ n + (if is.st ≠ 0 then 1 else 0)
    unfold pairItem at hr
    by_cases h0 : is.st = 0
    · rw [if_neg (not_not_intro h0)] at hr
      rw [if_neg (not_not_intro h0)]
      rcases h.dec2 s wc n st hs hr with ⟨h1, _⟩ | ⟨h1, h2, h3⟩
      · rw [if_neg (not_not_intro h1)]
        obtain ⟨o, g1, g2⟩ := M.good_run body 1 s hd (one_le_length hs)
        rw [hr] at g1; cases g1
        obtain ⟨j, _, _, hp⟩ := g2 _ rfl
        have := hp.2.1
        omega
      · rw [if_pos h1]
        have := hC _ h3
        rw [List.length_take] at this
        omega
    · rw [if_pos h0] at hr
      cases hr
      rw [if_pos h0, if_neg (by omega)]
      omega
  · intro is s n is' hI hs ha
    obtain ⟨st, hr, rfl⟩ := satom_shift (item := pairItem body) ha
    exfalso
    unfold pairItem at hr
    by_cases h0 : is.st = 0
    · rw [if_neg (not_not_intro h0)] at hr
      obtain ⟨o, g1, g2⟩ := M.good_run body 1 s hd (one_le_length hs)
      rw [hr] at g1; cases g1
      obtain ⟨j, _, _, hp⟩ := g2 _ rfl
      exact hp
    · rw [if_pos h0] at hr; cases hr
  · intro is hI
    have hb : is.bo = 0 := hI.1
    show 1 * ((pairDec body).kept is).length ≤ if is.st ≠ 0 then 1 else 0
    have e := pair_kept (body := body) is.st
    have : is = ⟨0, is.st⟩ := by cases is; simp only at hb; subst hb; rfl
    rw [this, e]
    split <;> simp

theorem pairs_min : ∀ r ∈ pairRows, r.entry.MinOK :=
  all_cons (pair_min (hk_rel hk1999_two hk1999_dgood hk1999_pairs) (by decide +kernel) rfl) <|
  all_cons (pair_min (hk_rel hk2001_two hk2001_dgood hk2001_pairs) (by decide +kernel) rfl) <|
  all_cons (pair_min (hk_rel hk2004_two hk2004_dgood hk2004_pairs) (by decide +kernel) rfl) <|
  all_cons (pair_min (hk_rel hk2008_two hk2008_dgood hk2008_pairs) (by decide +kernel) rfl) <|
  all_cons (pair_min (euc_jx_rel euc_jx_ok) (by decide +kernel) rfl) <|
  all_cons (pair_min (sjx_rel sjx_ok) (by decide +kernel) rfl) all_nil

theorem comp_min {idx : Nat} {hu : unitOf idx = 1} {d : CompDec} {hd : d.Ok} {e : CompEnc} {he : e.Ok}
    (hk : readMin idx = 1) : (compEntry idx hu d hd e he).MinOK := by
  refine Entry.MinIn.ok (u := 1) ⟨fun is => if is.st ≠ 0 then 1 else 0, rfl, ?_, ?_, ?_⟩ hk
  · intro is s wc n is' hI hs ha
    have ha : d.atom is s = .char wc n is' := ha
    show 1 + (if is'.st ≠ 0 then 1 else 0) ≤ n + (if is.st ≠ 0 then 1 else 0)
    unfold CompDec.atom at ha
    split at ha
    · cases ha
    · split at ha
      · cases ha
      · split at ha
        · next h0 =>
          rw [if_pos h0]
          split at ha
          · split at ha
            · cases ha
            · cases ha; rw [if_neg (by simp)]; omega
          · cases ha; rw [if_neg (by simp)]; omega
        · next h0 =>
          split at ha
          · cases ha
          · cases ha; rw [if_neg h0]; omega
  · intro is s n is' hI hs ha
    have ha : d.atom is s = .shift n is' := ha
    have := CompDec.atom_shift ha
    show (if is'.st ≠ 0 then 1 else 0) ≤ n + (if is.st ≠ 0 then 1 else 0)
    split <;> omega
  · intro is _
    show 1 * (d.dec.kept is).length ≤ if is.st ≠ 0 then 1 else 0
    have : d.dec.kept is = if is.st ≠ 0 then [is.st] else [] := by
      show (normal_flushwc is).1.toList = _
      unfold normal_flushwc
      split <;> rfl
    rw [this]
    split <;> simp

theorem M.all_on {β : Type} {P : β → Prop} {m : M MbRet} {l : List Nat} {k : MbRet → M β} (h : ∀ a, (k a).All P) : (m.on l k).All P := by
  unfold M.on
  split
  · exact h _
  · exact h _
  all_goals trivial

theorem all_sOne {P : SItem → Prop} {m : M MbRet} {b : Nat} {k : Nat → M SItem} (h1 : P .ilseq) (h : ∀ wc, (k wc).All P) :
    (sOne m b k).All P := M.all_on fun _ => M.all_ite h1 (M.all_ite trivial (h _))

theorem all_sTwo {P : SItem → Prop} {m : M MbRet} {b1 b2 : Nat} {k : Nat → M SItem} (h1 : P .ilseq) (h : ∀ wc, (k wc).All P) :
    (sTwo m b1 b2 k).All P := M.all_on fun _ => M.all_ite h1 (M.all_ite trivial (h _))

/-- A character of the item has a byte, and two if another character is pending after it. -/
def jp3Eats : SItem → Prop
  | .char _ n st => 1 + (if 8 ≤ st then 1 else 0) ≤ n
  | .shift _ st => st < 8
  | .ilseq => True

theorem jp3Code_eats {st v : Nat} (h : st < 8) : jp3Eats (jp3Code st v) := by
  unfold jp3Code
  (repeat' split) <;> first | trivial | (show 1 + (if _ then 1 else 0) ≤ 2; split <;> omega)

theorem jp3_body_eats {st : Nat} (h : st < 8) : (iso2022_jp3_body st).All jp3Eats := by
  have hc : ∀ wc n, 1 ≤ n → jp3Eats (.char wc n st) := by
    intro wc n hn
    show 1 + (if 8 ≤ st then 1 else 0) ≤ n
    rw [if_neg (by omega)]; exact hn
  have hs : ∀ n k, k < 8 → (M.ret (SItem.shift n k)).All jp3Eats := fun _ _ h => h
  have hi : (M.ret SItem.ilseq).All jp3Eats := trivial
  intro c
  refine M.all_ite (fun c1 c2 => M.all_ite (M.all_ite (hs _ _ (by decide)) (M.all_ite (hs _ _ (by decide)) (M.all_ite (hs _ _ (by decide)) hi)))
    (M.all_ite (M.all_ite (hs _ _ (by decide)) (M.all_ite (fun c3 => M.all_ite (hs _ _ (by decide)) (M.all_ite (hs _ _ (by decide)) hi)) hi)) hi))
    (M.all_ite (M.all_ite (all_sOne trivial fun _ => hc _ _ (Nat.le_refl 1)) hi)
    (M.all_ite (M.all_ite (all_sOne trivial fun _ => hc _ _ (Nat.le_refl 1)) hi)
    (M.all_ite (M.all_ite (all_sOne trivial fun _ => hc _ _ (Nat.le_refl 1)) hi)
    (M.all_ite (fun c1 c2 => M.all_ite (all_sTwo trivial fun _ => hc _ _ (by decide)) hi)
    (M.all_ite (fun c1 c2 => M.all_ite ?_ hi) trivial)))))
  rw [jxToM_fast, forceN_eq]
  exact jp3Code_eats h

theorem jp3_min : iso2022_jp3_entry.MinOK := by
  refine Entry.MinIn.ok (u := 1) ⟨fun is => if 8 ≤ is.st then 1 else 0, rfl, ?_, ?_, ?_⟩ rfl
  · intro is s wc n is' hI hs ha
    obtain ⟨st, hr, rfl⟩ := satom_char (item := iso2022_jp3_item) ha
    show 1 + (if 8 ≤ st then 1 else 0) ≤ n + (if 8 ≤ is.st then 1 else 0)
    unfold iso2022_jp3_item at hr
    by_cases h0 : is.st >>> 3 = 0
    · rw [if_neg (not_not_intro h0)] at hr
      rw [shr3] at h0
      have := M.all_run (P := jp3Eats) (jp3_body_eats (by omega)) hr
      have : 1 + (if 8 ≤ st then 1 else 0) ≤ n := this
      omega
    · rw [if_pos h0] at hr
      rw [shr3] at h0
      cases hr
      rw [and7, if_pos (show 8 ≤ is.st by omega), if_neg (show ¬ 8 ≤ is.st % 8 by omega)]
      omega
  · intro is s n is' hI hs ha
    obtain ⟨st, hr, rfl⟩ := satom_shift (item := iso2022_jp3_item) ha
    show (if 8 ≤ st then 1 else 0) ≤ n + (if 8 ≤ is.st then 1 else 0)
    unfold iso2022_jp3_item at hr
    by_cases h0 : is.st >>> 3 = 0
    · rw [if_neg (not_not_intro h0)] at hr
      rw [shr3] at h0
      have := M.all_run (P := jp3Eats) (jp3_body_eats (by omega)) hr
      rw [if_neg (show ¬ 8 ≤ st from Nat.not_le.2 this)]
      omega
    · rw [if_pos h0] at hr; cases hr
  · intro is _
    show 1 * ((iso2022_jp3_flushwc is).1.toList).length ≤ if 8 ≤ is.st then 1 else 0
    unfold iso2022_jp3_flushwc
    rw [shr3]
    by_cases h0 : is.st / 8 = 0
    · rw [if_neg (not_not_intro h0)]; simp
    · rw [if_pos h0, if_pos (by omega)]; simp

theorem shift_min : ∀ r ∈ shiftRows, r.entry.MinOK :=
  all_cons ((minIn_nopend (A := hz_entry) (fun _ => rfl) rfl).ok rfl) <|
  all_cons ((minIn_nopend (A := iso2022_kr_entry) (fun _ => rfl) rfl).ok rfl) <|
  all_cons ((minIn_nopend (A := iso2022_cn_entry) (fun _ => rfl) rfl).ok rfl) <|
  all_cons ((minIn_nopend (A := iso2022_cn_ext_entry) (fun _ => rfl) rfl).ok rfl) <|
  all_cons ((minIn_nopend (A := iso2022_jp_entry) (fun _ => rfl) rfl).ok rfl) <|
  all_cons ((minIn_nopend (A := iso2022_jp1_entry) (fun _ => rfl) rfl).ok rfl) <|
  all_cons ((minIn_nopend (A := iso2022_jp2_entry) (fun _ => rfl) rfl).ok rfl) <|
  all_cons jp3_min <|
  all_cons ((minIn_nopend (A := iso2022_jpms_entry) (fun _ => rfl) rfl).ok rfl) <|
  all_cons utf7_min all_nil

theorem single_min : ∀ r ∈ singleRows, r.entry.MinOK := by
  have hi : ∀ r ∈ singleRows, readMin r.entry.idx = 1 := by decide +kernel
  intro r hr
  refine Entry.MinIn.ok ?_ (hi r hr)
  rcases List.mem_append.1 hr with h | h
  · simp only [plainRows, List.mem_cons, List.not_mem_nil, or_false] at h
    rcases h with rfl | rfl
    · exact inBounds_ok _ (List.mem_of_getElem? (i := 0) rfl)
    · exact inBounds_ok _ (List.mem_of_getElem? (i := 1) rfl)
  · exact (sbRows_bounds r h).1

theorem mb_min {idx : Nat} {hu : unitOf idx = 1} {m : M MbRet} {hg : M.Good M.RetOK 1 m} {w : Nat → W}
    {hwg : ∀ wc, W.Good 0 (w wc)} (hk : readMin idx = 1) :
    (simpleEntry idx 1 hu (M.simple m hg) (W.senc w hwg)).MinOK :=
  Entry.MinIn.ok minIn_one hk

theorem multi_min : ∀ r ∈ mbRows, r.entry.MinOK :=
  all_cons (mb_min rfl) <| all_cons (mb_min rfl) <| all_cons (mb_min rfl) <|
  all_cons (mb_min rfl) <| all_cons (mb_min rfl) <| all_cons (mb_min rfl) <|
  all_cons (mb_min rfl) <| all_cons (mb_min rfl) <| all_cons (mb_min rfl) <|
  all_cons (mb_min rfl) <| all_cons (mb_min rfl) <| all_cons (mb_min rfl) <|
  all_cons (mb_min rfl) <| all_cons (mb_min rfl) <| all_cons (mb_min rfl) <|
  all_cons (mb_min rfl) <| all_cons (mb_min rfl) <| all_cons (mb_min rfl) <|
  all_cons (mb_min rfl) <| all_cons (mb_min rfl) <| all_cons (mb_min rfl) <| all_cons (mb_min rfl) all_nil

theorem in_min (k : Nat) {A : Entry} (h : (inBounds[k]?).map (·.1) = some A) (he : (inBounds[k]?).map (·.2) = some (readMin A.idx)) :
    A.MinOK := by
  cases hx : inBounds[k]? with
  | none => rw [hx] at h; cases h
  | some x =>
    rw [hx] at h he
    cases h
    exact Entry.MinIn.ok (inBounds_ok x (List.mem_of_getElem? hx)) (Option.some.inj he).symm

theorem uni_min : ∀ B ∈ exactUni, B.MinOK :=
  all_cons (in_min 2 rfl rfl) <| all_cons (in_min 9 rfl rfl) <| all_cons (in_min 10 rfl rfl) <|
  all_cons (in_min 17 rfl rfl) <| all_cons (in_min 18 rfl rfl) <| all_cons (in_min 4 rfl rfl) <|
  all_cons (in_min 5 rfl rfl) <| all_cons (in_min 6 rfl rfl) <| all_cons (in_min 7 rfl rfl) <|
  all_cons (in_min 12 rfl rfl) <| all_cons (in_min 13 rfl rfl) <| all_cons (in_min 14 rfl rfl) <|
  all_cons (in_min 15 rfl rfl) all_nil

theorem other_min : ∀ B ∈ otherEntries, B.MinOK :=
  all_cons (in_min 3 rfl rfl) <| all_cons (in_min 11 rfl rfl) <| all_cons (in_min 8 rfl rfl) <|
  all_cons (in_min 16 rfl rfl) <| all_cons (minIn_one.ok rfl) <| all_cons (minIn_one.ok rfl) <|
  all_cons (comp_min rfl) <| all_cons (comp_min rfl) <| all_cons (comp_min rfl) all_nil

theorem sources_min : ∀ A ∈ sources, A.MinOK := by
  refine all_cons (minIn_one.ok rfl) ?_
  intro B hB
  cases targets_kinds B hB with
  | single r h e => exact e ▸ single_min r h
  | multi r h e => exact e ▸ multi_min r h
  | uni h => exact uni_min B h
  | pair r h e => exact e ▸ pairs_min r h
  | shift r h e => exact e ▸ shift_min r h
  | other h => exact other_min B h

/-! ## The theorems -/

/-- **C46**, for every two registered encodings: with `u` the least number of bytes of a character of the source (1,
or 2 or 4 for UCS-2, UTF-16, UCS-4 and UTF-32 and their variants), `K` the greatest number of bytes of a character of
the target and `T` the greatest number of bytes of marks and final sequences (`writeMax`), the size that
`reiconv_result_size` reports, the length of what `reiconv_convert` returns and all that a program ever collects from
a new descriptor are at most `K / u` times the number of bytes of input, plus `T`. -/
theorem C46_registered : ∀ A ∈ sources, ∀ B ∈ targets, ∀ discard : Bool,
    (∀ inp n s1, resultSize (A.conv B discard) St.init inp = .ok (.ok n, s1) →
      readMin A.idx * n ≤ (writeMax B.idx).1 * inp.length + readMin A.idx * (writeMax B.idx).2) ∧
    (∀ inp alloc r, convert (A.conv B discard) St.init inp true true alloc = .ok r →
      ∀ n, r.outLen = some n → readMin A.idx * n ≤ (writeMax B.idx).1 * inp.length + readMin A.idx * (writeMax B.idx).2) ∧
    (∀ ops y, session (A.conv B discard) (Sess.start St.init) ops = .ok y →
      readMin A.idx * y.out.length ≤ (writeMax B.idx).1 * (fed ops).length + readMin A.idx * (writeMax B.idx).2) :=
  fun A hA B hB discard => C46_output_bound A B discard (sources_min A hA) (targets_max B hB)

theorem readMin_pos (i : Nat) : 1 ≤ readMin i := by unfold readMin; (repeat' split) <;> decide

theorem writeMax_le (i : Nat) : (writeMax i).1 ≤ 12 ∧ (writeMax i).2 ≤ 4 := by
  have h : ∀ x ∈ writeTab, x.2.1 ≤ 12 ∧ x.2.2 ≤ 4 := by decide +kernel
  unfold writeMax
  split
  · next x hx => exact h x (List.mem_of_find?_eq_some hx)
  · decide

/-- A buffer that is large enough whatever the two encodings: 12 bytes for each byte of input, and 4. -/
theorem C46_uniform : ∀ A ∈ sources, ∀ B ∈ targets, ∀ discard : Bool,
    (∀ inp n s1, resultSize (A.conv B discard) St.init inp = .ok (.ok n, s1) → n ≤ 12 * inp.length + 4) ∧
    (∀ inp alloc r, convert (A.conv B discard) St.init inp true true alloc = .ok r →
      ∀ n, r.outLen = some n → n ≤ 12 * inp.length + 4) ∧
    (∀ ops y, session (A.conv B discard) (Sess.start St.init) ops = .ok y →
      y.out.length ≤ 12 * (fed ops).length + 4) := by
  intro A hA B hB discard
  obtain ⟨h1, h2, h3⟩ := C46_registered A hA B hB discard
  have key : ∀ n l, readMin A.idx * n ≤ (writeMax B.idx).1 * l + readMin A.idx * (writeMax B.idx).2 → n ≤ 12 * l + 4 := by
    intro n l h
    obtain ⟨k1, k2⟩ := writeMax_le B.idx
    have u1 := readMin_pos A.idx
    have e1 : (writeMax B.idx).1 * l ≤ readMin A.idx * (12 * l) :=
      Nat.le_trans (Nat.mul_le_mul_right l k1) (Nat.le_mul_of_pos_left _ u1)
    have e2 : readMin A.idx * (writeMax B.idx).2 ≤ readMin A.idx * 4 := Nat.mul_le_mul_left _ k2
    have : readMin A.idx * n ≤ readMin A.idx * (12 * l + 4) := by rw [Nat.mul_add]; omega
    exact Nat.le_of_mul_le_mul_left this u1
  exact ⟨fun inp n s1 h => key _ _ (h1 inp n s1 h), fun inp alloc r h n hn => key _ _ (h2 inp alloc r h n hn),
    fun ops y h => key _ _ (h3 ops y h)⟩

/-- The bounds are reached: U+10000 in JAVA (12 bytes for the 4 of UCS-4), and HIRAGANA LETTER A in ISO-2022-JP with its
two escape sequences (5 and 3 bytes for the 2 of UCS-2). -/
theorem C46_reached :
    resultSize (ucs4be_entry.conv java_entry false) St.init [0, 1, 0, 0] = .ok (.ok 12, St.init) ∧
    readMin ei_ucs4be * 12 = (writeMax ei_java).1 * 4 + readMin ei_ucs4be * (writeMax ei_java).2 ∧
    resultSize (ucs2be_entry.conv iso2022_jp_entry false) St.init [0x30, 0x42] = .ok (.ok 8, St.init) ∧
    readMin ei_ucs2be * 8 = (writeMax ei_iso2022_jp).1 * 2 + readMin ei_ucs2be * (writeMax ei_iso2022_jp).2 := by
  refine ⟨by decide +kernel, by decide +kernel, by decide +kernel, by decide +kernel⟩

end Reiconv
