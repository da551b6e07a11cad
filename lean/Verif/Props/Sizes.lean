import Verif.Props.Exact

/-!
# For which target encodings the size that was asked for is enough

`reiconv_result_size` tells the number of bytes of a conversion. With a buffer of that size
`reiconv_convert_static_size` can still fail, because a character that is dropped or replaced is looked at again when
there is no room left. This file settles for every registered target encoding whether that can happen.
-/

namespace Reiconv

/-- Whatever is written for a character is not empty, and the conversion only stops for want of room in front of it if it
would not fit. -/
def Roomy (c : Conv) (he : EncOK c.enc) : Prop :=
  ∀ os wc room bs os' i, he.Inv os → encChar c.enc c.discard os wc = some (bs, os', i) →
    bs ≠ [] ∧ (PutBlocked c os wc room → room < bs.length)

/-- Then a buffer that holds the whole conversion is enough. -/
theorem roomy_static {c : Conv} {hd : DecOK c.dec c.unit} {he : EncOK c.enc} (hr : Roomy c he)
    (ht : EncTight c.enc he) {s inp b x e} (h : StaticPost c hd he s inp b x e)
    {T i s' fo fi} (hruns : Runs hd.atom c s inp T i (.done s')) (hfin : finish c s' = some (fo, fi))
    (hroom : (T ++ fo).length ≤ b.room.length) : x.1 = .ok () := by
  have hdet : ∀ {o i s2}, Ends hd.atom c s inp o i s2 → o = T ∧ s2 = s' := by
    rintro o i s2 (h1 | ⟨r1, h1⟩) <;> obtain ⟨rfl, _, h4⟩ := runs_det h1 hruns <;> cases h4 <;>
      exact ⟨rfl, rfl⟩
  have hres := h.res
  cases hx : x.1 with
  | ok u => rfl
  | error y =>
    exfalso
    rw [hx] at hres
    cases y with
    | EILSEQ =>
      obtain ⟨j, h1 | ⟨s2, h1, h2⟩⟩ := hres
      · obtain ⟨_, _, h4⟩ := runs_det h1 hruns; cases h4
      · obtain ⟨rfl, rfl⟩ := hdet h1; rw [hfin] at h2; cases h2
    | EINVAL => exact hres
    | ENOMEM => exact hres
    | E2BIG =>
      have hlen := h.len_eq
      rcases hres with ⟨st, rest, irr, hs⟩ | ⟨o1, i1, s1, s2, e2, j, hs⟩
      · obtain ⟨T', i', f', hrun'⟩ := runs_total (ec := encChar c.enc c.discard) (discard := c.discard) hd _ st rest
          hs.inv_is (Nat.le_refl _)
        obtain ⟨rfl, _, rfl⟩ := runs_det (hs.cont _ _ _ hrun') hruns
        simp only [List.length_append] at hroom
        obtain ⟨wc, n, is', hm, hblk⟩ := hs.blocked
        obtain ⟨ret, is2, hm2, hbatch⟩ := hd.batch _ rest hs.inv_is hs.ne
        rw [hm] at hm2; cases hm2
        rcases (runs_batch_char (discard := c.discard) (unit := c.unit) hbatch hs.ne rfl).1 hrun' with
          ⟨bs, os', k, out', irr', he', hr2, rfl, rfl⟩ | ⟨_, _, _, h0⟩
        · have hpos := List.length_pos_iff.mpr (hr _ _ 0 _ _ _ hs.inv_os he').1
          simp only [List.length_append] at hroom
          rcases hblk with h0 | ⟨_, hb⟩
          · omega
          · have := (hr _ _ _ _ _ _ hs.inv_os he').2 hb
            omega
        · cases h0
      · obtain ⟨rfl, rfl⟩ := hdet hs.ends
        have hblk := hs.blocked
        have heq := hs.e_eq
        subst heq
        simp only [List.length_append] at hroom hlen
        unfold FinBlocked at hblk
        rcases hs.where_ with hp | ⟨rfl, rfl⟩
        · rw [hp] at hblk
          obtain ⟨f, r, hf', g1, g2⟩ := hblk
          have h6 := ht.reset_tight f _ _ _ hf' hs.inv_os g1 g2
          have h7 := hs.cont (c.enc.tail s2.os) 0 (by simp [finish, hp])
          rw [hfin] at h7
          simp only [Option.some.injEq, Prod.mk.injEq] at h7
          rw [h7.1, List.length_append] at hroom
          omega
        · cases hp : (pending c s2).1 with
          | none =>
            rw [hp] at hblk
            obtain ⟨f, r, hf', g1, g2⟩ := hblk
            have h6 := ht.reset_tight f _ _ _ hf' hs.inv_os g1 g2
            simp only [finish, hp, Option.some.injEq, Prod.mk.injEq] at hfin
            rw [← hfin.1] at hroom
            simp only [List.length_nil] at hlen
            omega
          | some wc =>
            rw [hp] at hblk
            simp only [finish, hp] at hfin
            cases hc : encChar c.enc c.discard s2.os wc with
            | none => rw [hc] at hfin; cases hfin
            | some z =>
              obtain ⟨bs, os, k⟩ := z
              rw [hc] at hfin
              simp only [Option.some.injEq, Prod.mk.injEq] at hfin
              have := (hr _ _ _ _ _ _ hs.inv_os hc).2 hblk
              rw [← hfin.1] at hroom
              simp only [List.length_append, List.length_nil] at hroom hlen
              omega

/-! ## The encoders -/

/-- Encoders without state that represent every tag character and U+FFFD; for a character they do not represent they
ask for no more room than for U+FFFD. -/
theorem SimpleEnc.roomy {E : Encoder} (h : SimpleEnc E) {D : Decoder} {unit : Nat}
    (htag : ∀ wc, isTag wc = true → h.enc wc ≠ none) {bs} (hrep : h.enc 0xFFFD = some bs)
    (hneed : ∀ wc, h.enc wc = none → h.need wc ≤ bs.length) : Roomy ⟨D, E, unit, false⟩ h.toOK := by
  intro os wc room bs' os' i _ hc
  have hfull : ∀ wc, E.full os wc = (h.enc wc).map fun b => (b, os) := by
    intro wc
    unfold Encoder.full
    rw [h.eq os wc 64, if_pos (h.need_le wc)]
    cases h.enc wc <;> rfl
  simp only [encChar, hfull, hrep] at hc
  have blk : ∀ {n}, (∀ wc', (wc' = wc ∨ h.enc wc = none ∧ wc' = 0xFFFD) → h.need wc' ≤ n) →
      PutBlocked ⟨D, E, unit, false⟩ os wc room → room < n := by
    rintro n hn (⟨r, g1, g2, _⟩ | ⟨r, r', g1, g2, _, _, _, g3, g4, _⟩)
    · simp only [h.eq] at g1
      have := hn wc (.inl rfl)
      by_cases hx : h.need wc ≤ room
      · rw [if_pos hx] at g1
        cases he : h.enc wc with
        | none => rw [he] at g1; cases g1; cases g2
        | some b => rw [he] at g1; cases g1; cases g2
      · omega
    · simp only [h.eq] at g1 g3
      have hnone : h.enc wc = none := by
        by_cases hx : h.need wc ≤ room
        · rw [if_pos hx] at g1
          cases he : h.enc wc with
          | none => rfl
          | some b => rw [he] at g1; cases g1; cases g2
        · rw [if_neg hx] at g1; cases g1; cases g2
      have := hn 0xFFFD (.inr ⟨hnone, rfl⟩)
      by_cases hx : h.need 0xFFFD ≤ room
      · rw [if_pos hx, hrep] at g3; cases g3; cases g4
      · omega
  cases he : h.enc wc with
  | some b =>
    rw [he] at hc
    simp only [Option.map_some, Option.some.injEq, Prod.mk.injEq] at hc
    obtain ⟨rfl, _⟩ := hc
    refine ⟨(h.len wc _ he).1, blk ?_⟩
    rintro _ (rfl | ⟨g, _⟩)
    · exact (h.len _ _ he).2.2
    · rw [he] at g; cases g
  | none =>
    rw [he] at hc
    have ht : isTag wc = false := by
      cases ht : isTag wc with
      | false => rfl
      | true => exact absurd he (htag wc ht)
    simp [ht] at hc
    obtain ⟨rfl, _⟩ := hc
    refine ⟨(h.len _ _ hrep).1, blk ?_⟩
    rintro _ (rfl | ⟨_, rfl⟩)
    · exact hneed _ he
    · exact (h.len _ _ hrep).2.2

/-- Encoders without state that represent every character. -/
theorem SimpleEnc.roomyAll {E : Encoder} (h : SimpleEnc E) {D : Decoder} {unit : Nat} {discard : Bool}
    (hall : ∀ wc, h.enc wc ≠ none) : Roomy ⟨D, E, unit, discard⟩ h.toOK := by
  intro os wc room bs' os' i _ hc
  obtain ⟨b, he⟩ := Option.ne_none_iff_exists'.1 (hall wc)
  have hfull : E.full os wc = some (b, os) := by
    unfold Encoder.full
    rw [h.eq os wc 64, if_pos (h.need_le wc), he]
    rfl
  simp only [encChar, hfull, Option.some.injEq, Prod.mk.injEq] at hc
  obtain ⟨rfl, _⟩ := hc
  refine ⟨(h.len wc _ he).1, ?_⟩
  have := (h.len wc _ he).2.2
  rintro (⟨r, g1, g2, _⟩ | ⟨r, r', g1, g2, _⟩)
  · simp only [h.eq, he] at g1
    by_cases hx : h.need wc ≤ room
    · rw [if_pos hx] at g1; cases g1; cases g2
    · omega
  · simp only [h.eq, he] at g1
    by_cases hx : h.need wc ≤ room
    · rw [if_pos hx] at g1; cases g1; cases g2
    · rw [if_neg hx] at g1; cases g1; cases g2

/-- UTF-16 and UTF-32. -/
theorem BomEnc.roomy {E : Encoder} (h : BomEnc E) {D : Decoder} {unit : Nat}
    (htag : ∀ wc, isTag wc = true → h.enc wc ≠ none) {bs} (hrep : h.enc 0xFFFD = some bs) :
    Roomy ⟨D, E, unit, false⟩ h.toOK := by
  intro os wc room bs' os' i _ hc
  have hb := (h.len _ _ hrep).1
  simp only [encChar, h.full_eq, hrep, Option.map_some] at hc
  cases he : h.enc wc with
  | some b =>
    have hl := (h.len _ _ he).1
    rw [he] at hc
    simp only [Option.map_some, Option.some.injEq, Prod.mk.injEq] at hc
    obtain ⟨rfl, _⟩ := hc
    refine ⟨fun h => ?_, ?_⟩
    · have := (List.append_eq_nil_iff.1 h).2
      subst this; simp at hl
    rintro (⟨r, g1, g2, _⟩ | ⟨r, r', g1, g2, _⟩)
    · simp only [h.eq, he] at g1
      by_cases hx : (bomPre h.bom os ++ b).length ≤ room
      · rw [if_pos hx] at g1; cases g1; cases g2
      · omega
    · simp only [h.eq, he] at g1
      by_cases hx : (bomPre h.bom os ++ b).length ≤ room
      · rw [if_pos hx] at g1; cases g1; cases g2
      · rw [if_neg hx] at g1; cases g1; cases g2
  | none =>
    rw [he] at hc
    have ht : isTag wc = false := by
      cases ht : isTag wc with
      | false => rfl
      | true => exact absurd he (htag wc ht)
    simp [ht] at hc
    obtain ⟨rfl, _⟩ := hc
    refine ⟨fun h => ?_, ?_⟩
    · have := (List.append_eq_nil_iff.1 h).2
      subst this; simp at hb
    rintro (⟨r, g1, g2, _⟩ | ⟨r, r', g1, g2, _, _, _, g3, g4, _⟩)
    · simp only [h.eq, he] at g1
      split at g1
      · next hx =>
        split at g1
        · cases g1; cases g2
        · next hy =>
          rw [hx.2]
          simp only [bomPre, List.length_append, if_true]
          omega
      · cases g1; cases g2
    · simp only [h.eq, hrep] at g3
      by_cases hx : (bomPre h.bom os ++ bs).length ≤ room
      · rw [if_pos hx] at g3; cases g3; cases g4
      · omega

/-! ### GB18030 -/

/-- No more than `K` bytes of room are asked for. -/
def W.Low (K : Nat) (w : W) : Prop := w.need ≤ K

namespace W.Low

variable {K : Nat}

theorem room {k : Nat} {w : W} (hk : k ≤ K) (h : w.Low K) : (W.room k w).Low K := Nat.max_le.2 ⟨hk, h⟩
theorem put {bs : List Nat} : (W.put bs).Low K := Nat.zero_le _
theorem iluni : W.iluni.Low K := Nat.zero_le _
theorem ub : W.ub.Low K := Nat.zero_le _
theorem abort : W.abort.Low K := Nat.zero_le _
theorem ite {P : Prop} [Decidable P] {a b : W} (h1 : a.Low K) (h2 : b.Low K) : (if P then a else b).Low K := by
  split
  · exact h1
  · exact h2
theorem orElse : ∀ {a b : W}, a.Low K → b.Low K → (a.orElse b).Low K
  | .room _ w, _, h1, h2 => room (Nat.max_le.1 h1).1 (orElse (a := w) (Nat.max_le.1 h1).2 h2)
  | .put _, _, _, _ => put
  | .iluni, _, _, h2 => h2
  | .ub, _, _, _ => ub
  | .abort, _, _, _ => abort
theorem on {w : W} {n : Nat} {k : Int → List Nat → W} (h : ∀ r b, (k r b).Low K) : (W.on w n k).Low K := by
  unfold W.on
  split
  · exact ite (h _ _) ub
  · exact ub
  · exact abort
  · exact ub
theorem rdW {t : Tab} {i : Nat} {f : Nat → W} (h : ∀ v, (f v).Low K) : (t.rdW i f).Low K := by
  unfold Tab.rdW
  split
  · exact h _
  · exact abort
  · exact ub
theorem inW {α : Type} {o : Outcome α} {f : α → W} (h : ∀ v, (f v).Low K) : (o.inW f).Low K := by
  unfold Outcome.inW
  split
  · exact h _
  · exact abort
  · exact ub
theorem cs {e : CsEnc} {wc : Nat} (h : 2 ≤ K) : (e.wctomb wc).Low K := by
  unfold CsEnc.wctomb
  refine room h ?_
  split
  · exact put
  · exact iluni
  · exact abort
  · exact ub
theorem ascii {wc : Nat} : (ascii_w wc).Low K := ite put iluni

end W.Low

theorem gbk_low (wc : Nat) : (gbk_wctomb wc).Low 4 := by
  have h1 : (gbk_rest wc).Low 4 := .on fun _ _ => .ite (.ite .abort (.room (by decide) .put)) <|
    .ite (.room (by decide) .put) <| .on fun _ _ => .ite (.ite .abort (.room (by decide) .put)) <| by
      repeat' (first | exact .put | exact .iluni | refine .room (by decide) ?_ | refine .ite ?_ ?_)
  exact .ite (.on fun _ _ => .ite (.ite .abort (.room (by decide) .put)) h1) h1

theorem gb18030_low (wc : Nat) : (gb18030_2022_wctomb wc).Low 4 := by
  have hu : (gb_wuni wc).Low 4 := .inW fun _ => .ite .iluni (.rdW fun _ => .put)
  have hn : (gb18030_2022_uni_wctomb wc).Low 4 :=
    .room (by decide) <| .ite (.ite .put <| .ite (.rdW fun _ => .put) <| .ite (.rdW fun _ => .ite .put hu) hu) .iluni
  have hq : (gb_pua2022 wc (gb18030_2022_uni_wctomb wc)).Low 4 := .inW fun _ => .ite (.rdW fun _ => .rdW fun _ => .put) hn
  have hv : (gb_wuser wc).Low 4 := .ite .put .put
  exact .orElse (.orElse .ascii <| .orElse (gbk_low wc) <| .orElse (.cs (by decide)) <|
    .ite (.room (by decide) (.ite hv hq)) hn) (.room (by decide) (.ite .put .iluni))

/-! ### UTF-7 -/

theorem u7enc_none {os wc : Nat} (h : u7enc os wc = none) : 0x110000 ≤ wc := by
  unfold u7enc at h
  repeat' split at h
  all_goals first | (cases h; done) | omega

theorem utf7_roomy {D : Decoder} {unit : Nat} : Roomy ⟨D, utf7_encoder, unit, false⟩ utf7_enc.toOK := by
  intro os wc room bs' os' i hI hc
  have hI : utf7_enc.I os := hI
  have hne : ∀ {wc b o}, utf7_enc.enc os wc = some (b, o) → b ≠ [] ∧ utf7_enc.need os wc ≤ b.length := by
    intro wc b o he
    refine ⟨?_, (utf7_enc.len os wc b o hI he).2.2⟩
    have he' : (u7enc os wc).map (fun (x : List Nat × Nat) => (x.1.map u8, x.2)) = some (b, o) := he
    cases hx : u7enc os wc with
    | none => rw [hx] at he'; cases he'
    | some x =>
      rw [hx] at he'
      cases he'
      exact fun h => (u7enc_st hx).2.1 (List.map_eq_nil_iff.1 h)
  have hlarge : utf7_enc.enc os wc = none → 0x110000 ≤ wc := by
    intro h
    have h' : (u7enc os wc).map (fun (x : List Nat × Nat) => (x.1.map u8, x.2)) = none := h
    exact u7enc_none (Option.map_eq_none_iff.1 h')
  obtain ⟨⟨b, o⟩, hrep⟩ : ∃ x, utf7_enc.enc os 0xFFFD = some x := by
    cases h : utf7_enc.enc os 0xFFFD with
    | some x => exact ⟨x, rfl⟩
    | none =>
      have h' : (u7enc os 0xFFFD).map (fun (x : List Nat × Nat) => (x.1.map u8, x.2)) = none := h
      have := u7enc_none (Option.map_eq_none_iff.1 h')
      omega
  simp only [encChar, utf7_enc.full_eq hI] at hc
  cases he : utf7_enc.enc os wc with
  | some x =>
    obtain ⟨b', o'⟩ := x
    rw [he] at hc
    simp only [Option.some.injEq, Prod.mk.injEq] at hc
    obtain ⟨rfl, _⟩ := hc
    refine ⟨(hne he).1, ?_⟩
    have := (hne he).2
    rintro (⟨r, g1, g2, _⟩ | ⟨r, r', g1, g2, _⟩)
    · simp only [utf7_enc.eq os wc room hI, he] at g1
      by_cases hx : utf7_enc.need os wc ≤ room
      · rw [if_pos hx] at g1; cases g1; cases g2
      · omega
    · simp only [utf7_enc.eq os wc room hI, he] at g1
      by_cases hx : utf7_enc.need os wc ≤ room
      · rw [if_pos hx] at g1; cases g1; cases g2
      · rw [if_neg hx] at g1; cases g1; cases g2
  | none =>
    have ht : isTag wc = false := by
      have := hlarge he
      unfold isTag
      exact decide_eq_false (by omega)
    rw [he, hrep] at hc
    simp [ht] at hc
    obtain ⟨rfl, _⟩ := hc
    refine ⟨(hne hrep).1, ?_⟩
    have := (hne hrep).2
    have h0 : utf7_enc.need os wc = 0 := by
      have h' : (u7enc os wc).map (fun (x : List Nat × Nat) => (x.1.map u8, x.2)) = none := he
      have hn := Option.map_eq_none_iff.1 h'
      show u7need os wc = 0
      unfold u7need
      rw [hn]
      split <;> rfl
    rintro (⟨r, g1, g2, _⟩ | ⟨r, r', g1, g2, _, _, _, g3, g4, _⟩)
    · simp only [utf7_enc.eq os wc room hI, he, h0, Nat.zero_le, if_true] at g1
      cases g1; cases g2
    · simp only [utf7_enc.eq os _ room hI, hrep] at g3
      by_cases hx : utf7_enc.need os 0xFFFD ≤ room
      · rw [if_pos hx] at g3; cases g3; cases g4
      · omega

/-! ## All registered target encodings -/

/-- The target encodings for which a buffer of the size that was asked for is enough: with the discard flag those that
represent every number, without it those that represent every tag character. -/
def enoughIdx : Bool → List Nat
  | true => [ei_ucs4be, ei_ucs4le, ei_ucs4internal, ei_ucs4swapped, ei_c99]
  | false => [ei_ucs4be, ei_ucs4le, ei_ucs4internal, ei_ucs4swapped, ei_c99, ei_utf8, ei_ucs4, ei_utf16, ei_utf16be,
      ei_utf16le, ei_utf32, ei_utf32be, ei_utf32le, ei_utf7, ei_java, ei_gb18030_2022]

theorem isTag_range {wc : Nat} (h : isTag wc = true) : 0xe0000 ≤ wc ∧ wc ≤ 0xe007f := of_decide_eq_true h

theorem tag_scalar {wc : Nat} (h : isTag wc = true) : Scalar wc := by
  have := isTag_range h
  unfold Scalar; omega

theorem ofLen_need {E : Encoder} {enc hr hlen heq} {wc : Nat} (h : enc wc = none) (n : Nat) :
    (SimpleEnc.ofLen E enc hr hlen heq).need wc ≤ n := by
  show (match enc wc with | some bs => bs.length | none => 0) ≤ n
  rw [h]; exact Nat.zero_le _

theorem ite_ne_none {α : Type} {P : Prop} [Decidable P] {a : α} (h : P) : (if P then some a else none) ≠ none := by
  rw [if_pos h]; exact nofun

theorem gb18030_tags : ∀ k < 128, (gb18030_2022_wctomb (0xe0000 + k)).res ≠ none := by decide +kernel

/-- Without the discard flag. -/
theorem strict_roomy (A : Entry) :
    (Roomy (A.conv utf8_entry false) utf8_entry.encOK ∧ Roomy (A.conv java_entry false) java_entry.encOK ∧
      Roomy (A.conv ucs4_entry false) ucs4_entry.encOK ∧ Roomy (A.conv utf7_entry false) utf7_entry.encOK) ∧
    (Roomy (A.conv utf32be_entry false) utf32be_entry.encOK ∧ Roomy (A.conv utf32le_entry false) utf32le_entry.encOK ∧
      Roomy (A.conv utf16be_entry false) utf16be_entry.encOK ∧ Roomy (A.conv utf16le_entry false) utf16le_entry.encOK) ∧
    Roomy (A.conv utf16_entry false) utf16_entry.encOK ∧ Roomy (A.conv utf32_entry false) utf32_entry.encOK ∧
    Roomy (A.conv gb18030_2022_entry false) gb18030_2022_entry.encOK := by
  refine ⟨⟨?_, ?_, ?_, utf7_roomy⟩, ⟨?_, ?_, ?_, ?_⟩, ?_, ?_, ?_⟩
  · refine SimpleEnc.roomy utf8_senc (fun wc h => ite_ne_none (tag_scalar h)) rfl (fun wc h => ?_)
    show (if Scalar wc then (utf8Enc wc).length else 0) ≤ _
    have h : (if Scalar wc then some (utf8Enc wc) else none) = none := h
    split at h
    · cases h
    · next hs => rw [if_neg hs]; exact Nat.zero_le _
  · refine SimpleEnc.roomy java_senc (fun wc h => ite_ne_none (tag_scalar h).lt) rfl (fun wc h => ?_)
    have h : (if wc < 0x110000 then some (javaStr wc) else none) = none := h
    show (if wc < 0x80 then 0 else if wc < 0x10000 then 6 else if wc < 0x110000 then 12 else 0) ≤ _
    split at h
    · cases h
    · rw [if_neg (by omega), if_neg (by omega), if_neg (by omega)]; exact Nat.zero_le _
  · exact SimpleEnc.roomy ucs4_senc (fun wc h => ite_ne_none (by have := isTag_range h; omega)) rfl
      (fun wc h => ofLen_need h _)
  · exact SimpleEnc.roomy utf32be_senc (fun wc h => ite_ne_none (tag_scalar h)) rfl (fun wc h => ofLen_need h _)
  · exact SimpleEnc.roomy utf32le_senc (fun wc h => ite_ne_none (tag_scalar h)) rfl (fun wc h => ofLen_need h _)
  · exact SimpleEnc.roomy utf16be_senc (fun wc h => ite_ne_none (tag_scalar h)) rfl (fun wc h => ofLen_need h _)
  · exact SimpleEnc.roomy utf16le_senc (fun wc h => ite_ne_none (tag_scalar h)) rfl (fun wc h => ofLen_need h _)
  · exact BomEnc.roomy utf16_benc (fun wc h => ite_ne_none ⟨tag_scalar h, by have := isTag_range h; omega⟩) rfl
  · exact BomEnc.roomy utf32_benc (fun wc h => ite_ne_none (tag_scalar h)) rfl
  · obtain ⟨bs, h1, h2⟩ : ∃ bs, (gb18030_2022_wctomb 0xFFFD).res = some bs ∧ bs.length = 4 :=
      ⟨[0x84, 0x31, 0xA4, 0x37], by decide +kernel, rfl⟩
    refine SimpleEnc.roomy _ (fun wc h => ?_) h1 (fun wc _ => by rw [h2]; exact gb18030_low wc)
    have := isTag_range h
    have := gb18030_tags (wc - 0xe0000) (by omega)
    rwa [show 0xe0000 + (wc - 0xe0000) = wc by omega] at this

theorem targets_roomy (discard : Bool) {B : Entry} (hB : B ∈ targets) (h : B.idx ∈ enoughIdx discard) (A : Entry) :
    Roomy (A.conv B discard) B.encOK := by
  have key : ∀ {X : Entry} (i : Nat), sources[i]? = some X → B.idx = X.idx → B = X := fun i hi h =>
    (sources_unique _ (List.mem_of_getElem? hi) B (List.mem_cons_of_mem _ hB) h.symm).symm
  have all : B.idx ∈ enoughIdx true → Roomy (A.conv B discard) B.encOK := by
    intro h
    simp only [enoughIdx, List.mem_cons, List.not_mem_nil, or_false] at h
    rcases h with h | h | h | h | h
    · obtain rfl := key (X := ucs4be_entry) 7 rfl h; exact SimpleEnc.roomyAll _ (fun _ => nofun)
    · obtain rfl := key (X := ucs4le_entry) 8 rfl h; exact SimpleEnc.roomyAll _ (fun _ => nofun)
    · obtain rfl := key (X := ucs4internal_entry) 18 rfl h; exact SimpleEnc.roomyAll _ (fun _ => nofun)
    · obtain rfl := key (X := ucs4swapped_entry) 19 rfl h; exact SimpleEnc.roomyAll _ (fun _ => nofun)
    · obtain rfl := key (X := c99_entry) 20 rfl h; exact SimpleEnc.roomyAll _ (fun _ => nofun)
  cases discard with
  | true => exact all h
  | false =>
    obtain ⟨⟨s1, s2, s3, s4⟩, ⟨s5, s6, s7, s8⟩, s9, s10, s11⟩ := strict_roomy A
    simp only [enoughIdx, List.mem_cons, List.not_mem_nil, or_false] at h
    rcases h with h | h | h | h | h | h | h | h | h | h | h | h | h | h | h | h
    · exact all (by rw [h]; decide)
    · exact all (by rw [h]; decide)
    · exact all (by rw [h]; decide)
    · exact all (by rw [h]; decide)
    · exact all (by rw [h]; decide)
    · obtain rfl := key (X := utf8_entry) 2 rfl h; exact s1
    · obtain rfl := key (X := ucs4_entry) 6 rfl h; exact s3
    · obtain rfl := key (X := utf16_entry) 9 rfl h; exact s9
    · obtain rfl := key (X := utf16be_entry) 10 rfl h; exact s7
    · obtain rfl := key (X := utf16le_entry) 11 rfl h; exact s8
    · obtain rfl := key (X := utf32_entry) 12 rfl h; exact s10
    · obtain rfl := key (X := utf32be_entry) 13 rfl h; exact s5
    · obtain rfl := key (X := utf32le_entry) 14 rfl h; exact s6
    · obtain rfl := key (X := utf7_entry) 15 rfl h; exact s4
    · obtain rfl := key (X := java_entry) 21 rfl h; exact s2
    · obtain rfl := key (X := gb18030_2022_entry) 32 rfl h; exact s11

/-- With a roomy target `reiconv_convert_static_size` succeeds in a buffer of the size that was asked for. -/
theorem roomy_size (A B : Entry) (discard : Bool) (hA : A.FixedOrder) (hR : Roomy (A.conv B discard) B.encOK)
    (inp : List Byte) {n s1} (h : resultSize (A.conv B discard) St.init inp = .ok (.ok n, s1))
    (room : List Byte) (hroom : n ≤ room.length) :
    ∃ s2 b, convertStatic (A.conv B discard) s1 inp ⟨false, [], room⟩ = .ok (.ok (), s2, b) ∧ b.out.length = n := by
  obtain ⟨sz, s1', h1, hI1, hO1, h2⟩ := size_whole A B discard inp
  rw [h] at h1; cases h1
  rcases h2 with ⟨n', out, irr, h3, hw, rfl, h4⟩ | ⟨h3, _⟩
  · cases h3
    obtain rfl := h4 hA
    obtain ⟨ret, s2, b, hx, hl, ⟨rfl, h5, _⟩ | ⟨rfl, _⟩⟩ :=
      static_whole A B discard St.init hI1 hO1 inp room hw (Or.inl hroom)
    · exact ⟨s2, b, hx, by rw [h5]⟩
    · exfalso
      obtain ⟨y, e, hy, hp⟩ := convertStatic_spec (c := A.conv B discard) A.decOK B.encOK St.init
        inp ⟨false, [], room⟩ hI1 hO1 rfl ⟨_, hx⟩
      rw [hx] at hy; cases hy
      obtain ⟨o, i, s', fo, fi, hrun, hfin, rfl, rfl⟩ := hw
      have := roomy_static hR B.tight hp hrun hfin hroom
      cases this
  · cases h3

/-- The size that was asked for is not enough: `reiconv_convert` fails with `E2BIG`. -/
def fallsShort (c : Conv) (inp : List Byte) : Bool :=
  match resultSize c St.init inp, convert c St.init inp true true zeros with
  | .ok (.ok n, s1), .ok r =>
    (match convertStatic c s1 inp ⟨false, [], List.replicate n 0⟩ with
      | .ok (.error .E2BIG, _, _) => true
      | _ => false) && decide (r.ret = .error .E2BIG)
  | _, _ => false

theorem fallsShort_ok {c : Conv} {inp : List Byte} (h : fallsShort c inp = true) :
    ∃ n s1 s2 b r, resultSize c St.init inp = .ok (.ok n, s1) ∧
      convertStatic c s1 inp ⟨false, [], List.replicate n 0⟩ = .ok (.error .E2BIG, s2, b) ∧
      convert c St.init inp true true zeros = .ok r ∧ r.ret = .error .E2BIG := by
  unfold fallsShort at h
  split at h
  · next n s1 r h1 h2 =>
    simp only [Bool.and_eq_true, decide_eq_true_eq] at h
    obtain ⟨h3, h4⟩ := h
    split at h3
    · next s2 b h5 => exact ⟨n, s1, s2, b, r, h1, h5, h2, h4⟩
    · cases h3
  · cases h

/-- `a`, or U+3000, or U+4E02, and a tag character in UTF-8; `a` and the number 2^32 - 1 in UCS-4-INTERNAL. -/
theorem short_strict : ∀ B ∈ targets, B.idx ∈ enoughIdx false ∨
    ∃ t ∈ [[0x61, 0xF3, 0xA0, 0x81, 0x81], [0xE3, 0x80, 0x80, 0xF3, 0xA0, 0x81, 0x81],
        [0xE4, 0xB8, 0x82, 0xF3, 0xA0, 0x81, 0x81]],
      fallsShort (utf8_entry.conv B false) t = true := by decide +kernel

theorem short_discard : ∀ B ∈ targets, B.idx ∈ enoughIdx true ∨
    fallsShort (ucs4internal_entry.conv B true) [0x61, 0, 0, 0, 0xFF, 0xFF, 0xFF, 0xFF] = true := by decide +kernel

theorem falls_short (discard : Bool) {B : Entry} (hB : B ∈ targets) (h : B.idx ∉ enoughIdx discard) :
    ∃ A ∈ sources, A.idx ∉ markedIdx ∧ ∃ inp, fallsShort (A.conv B discard) inp = true ∧
      ∃ out irr, Whole A.atom (A.conv B discard) St.init inp out irr := by
  have key : ∀ A ∈ sources, A.idx ∉ markedIdx → ∀ inp, fallsShort (A.conv B discard) inp = true →
      ∃ A ∈ sources, A.idx ∉ markedIdx ∧ ∃ inp, fallsShort (A.conv B discard) inp = true ∧
      ∃ out irr, Whole A.atom (A.conv B discard) St.init inp out irr := by
    intro A hA hm inp hf
    refine ⟨A, hA, hm, inp, hf, ?_⟩
    obtain ⟨n, s1, _, _, _, h1, _⟩ := fallsShort_ok hf
    obtain ⟨sz, s1', g1, _, _, ⟨_, out, irr, _, hw, _⟩ | ⟨rfl, _⟩⟩ := size_whole A B discard inp
    · exact ⟨out, irr, hw⟩
    · rw [h1] at g1; cases g1
  cases discard with
  | true =>
    exact key ucs4internal_entry (List.mem_of_getElem? (i := 18) rfl) (by decide) _
      ((short_discard B hB).resolve_left h)
  | false =>
    obtain ⟨t, _, ht⟩ := (short_strict B hB).resolve_left h
    exact key utf8_entry (List.mem_of_getElem? (i := 2) rfl) (by decide) t ht

/-- **C08** exactly. For a target encoding and either setting of the discard flag, the following holds with every source
encoding but UCS-2, UCS-4, UTF-16 and UTF-32 (for which the second call may start in another byte order, `C09_wrong_text`) if
and only if the target encoding is in the list `enoughIdx`: when `reiconv_result_size` returns `n` on a new descriptor,
`reiconv_convert_static_size` succeeds with every buffer of at least `n` bytes and writes `n` bytes. -/
theorem C08_exact : ∀ (discard : Bool), ∀ B ∈ targets,
    (∀ A ∈ sources, A.idx ∉ markedIdx → ∀ (inp : List Byte) (n : Nat) (s1 : St),
      resultSize (A.conv B discard) St.init inp = .ok (.ok n, s1) → ∀ room : List Byte, n ≤ room.length →
        ∃ s2 b, convertStatic (A.conv B discard) s1 inp ⟨false, [], room⟩ = .ok (.ok (), s2, b) ∧ b.out.length = n) ↔
    B.idx ∈ enoughIdx discard := by
  intro discard B hB
  constructor
  · intro h
    refine Decidable.byContradiction fun hn => ?_
    obtain ⟨A, hA, hm, inp, hf, _⟩ := falls_short discard hB hn
    obtain ⟨n, s1, s2, b, r, h1, h2, _⟩ := fallsShort_ok hf
    obtain ⟨s2', b', h3, _⟩ := h A hA hm inp n s1 h1 (List.replicate n 0) (by simp)
    rw [h2] at h3; cases h3
  · intro h A hA hm inp n s1 h1 room hroom
    exact roomy_size A B discard (sources_fixed A hA hm) (targets_roomy discard hB h A) inp h1 room hroom

/-- **C09, C13** exactly. For a target encoding, the following holds with every source encoding but UCS-2, UCS-4, UTF-16 and
UTF-32 if and only if the target encoding is in the list `enoughIdx`: `reiconv_convert` on a new descriptor succeeds
for every text that has a conversion. -/
theorem C13_exact : ∀ (discard : Bool), ∀ B ∈ targets,
    (∀ A ∈ sources, A.idx ∉ markedIdx → ∀ (inp : List Byte) (alloc : Nat → List Byte), (∀ n, (alloc n).length = n) →
      (∃ out irr, Whole A.atom (A.conv B discard) St.init inp out irr) →
        ∃ r, convert (A.conv B discard) St.init inp true true (fun n => some (alloc n)) = .ok r ∧ r.ret = .ok ()) ↔
    B.idx ∈ enoughIdx discard := by
  intro discard B hB
  constructor
  · intro h
    refine Decidable.byContradiction fun hn => ?_
    obtain ⟨A, hA, hm, inp, hf, hw⟩ := falls_short discard hB hn
    obtain ⟨n, s1, s2, b, r, _, _, h1, h2⟩ := fallsShort_ok hf
    obtain ⟨r', h3, h4⟩ := h A hA hm inp (fun n => List.replicate n 0) (fun n => List.length_replicate) hw
    have h3 : convert (A.conv B discard) St.init inp true true zeros = .ok r' := h3
    rw [h1] at h3; cases h3
    rw [h2] at h4; cases h4
  · rintro h A hA hm inp alloc hal ⟨out, irr, hw⟩
    have hf := sources_fixed A hA hm
    obtain ⟨sz, s1, h1, _, _, ⟨n, out', irr', rfl, hw', hn, h4⟩ | ⟨rfl, hno⟩⟩ := size_whole A B discard inp
    · obtain ⟨s2, b, h5, h6⟩ := roomy_size A B discard hf (targets_roomy discard hB h A) inp h1 (alloc n) (by rw [hal]; exact Nat.le_refl _)
      obtain ⟨r, h7, h8, _⟩ := C09_convert_whole_partial A B discard hf inp alloc hal
      refine ⟨r, h7, ?_⟩
      rcases h8 with ⟨h8, _⟩ | ⟨⟨e, h8⟩, h9⟩
      · exact h8
      · exfalso
        simp only [convert, h1, Outcome.bind_ok, Bool.not_true, Bool.false_eq_true, if_false, if_true, h5] at h7
        cases h7
        cases h8
    · exact absurd hw (hno _ _)

/-- With the discard flag a text that does not end inside a sequence has a conversion: the reading of `C13_exact` for
that flag. -/
theorem C13_whole (A B : Entry) (inp : List Byte) :
    (∃ out irr, Whole A.atom (A.conv B true) St.init inp out irr) ∨
    ∃ o i s' rest, Runs A.atom (A.conv B true) St.init inp o i (.einval s' rest) ∧ rest ≠ [] ∧ A.atom s'.is rest = .more := by
  obtain ⟨sz, s1, h1, _, _, ⟨n, out, irr, rfl, hw, _⟩ | ⟨rfl, _⟩⟩ := size_whole A B true inp
  · exact .inl ⟨out, irr, hw⟩
  · exact .inr ((C13_discard_partial A B St.init (Reach.init _) inp).2.2.1 _ _ h1)

/-- Both lists are met: UTF-8 is enough without the flag, and a text with a replaced character fits exactly. -/
example : ei_utf8 ∈ enoughIdx false ∧ ei_utf8 ∉ enoughIdx true ∧
    resultSize (ucs4internal_entry.conv utf8_entry false) St.init [0x61, 0, 0, 0, 0xFF, 0xFF, 0xFF, 0xFF] =
      .ok (.ok 4, St.init) := by
  refine ⟨by decide, by decide, by decide +kernel⟩

end Reiconv
