import Verif.Discard
import Verif.Props.Kinds

/-!
# The items of the registered encodings are complete when their bytes have been read

Helpers for C67 (`Props/Skip.lean`): `Local` for every encoding but C99, JAVA and UTF-7.
-/

namespace Reiconv

namespace Skip

theorem local_simple {idx unit : Nat} {hu : unitOf idx = unit} {D : Decoder} {E : Encoder} (d : SimpleDec D unit) (e : SimpleEnc E)
    (h : ∀ s wc n k, s ≠ [] → d.g s = .char wc n → d.g (s.take n) = .toofew k → False) :
    Local (simpleEntry idx unit hu d e) := by
  intro is s _ hne
  constructor
  · intro wc n is' ha
    have ha : atomOf d.g is s = .char wc n is' := ha
    unfold atomOf at ha
    split at ha
    · next w m hg =>
      cases ha
      refine .inl ⟨(d.char_ok s _ _ hne hg).1, ?_⟩
      intro hc
      have hc : atomOf d.g is (s.take n) = .more := hc
      unfold atomOf at hc
      split at hc
      · cases hc
      · cases hc
      · next k hg' => exact h s _ _ _ hne hg hg'
    · cases ha
    · cases ha
  · intro n is' ha
    have ha : atomOf d.g is s = .shift n is' := ha
    unfold atomOf at ha
    split at ha <;> cases ha

theorem local_single : ∀ r ∈ singleRows, Local r.entry := by
  unfold singleRows plainRows
  simp only [List.cons_append, List.nil_append, List.forall_mem_cons]
  have key : ∀ (s : List Byte) (g : List Byte → MbRet) (f : Byte → MbRet), (∀ b t, g (b :: t) = f b) →
      (∀ b k, f b ≠ .toofew k) → (∀ t wc n, t ≠ [] → g t = .char wc n → 1 ≤ n) →
      ∀ wc n k, s ≠ [] → g s = .char wc n → g (s.take n) = .toofew k → False := by
    intro s g f h1 h2 h3 wc n k hne hg hk
    have hn := h3 s wc n hne hg
    cases s with
    | nil => exact hne rfl
    | cons b t =>
      cases n with
      | zero => omega
      | succ n =>
        rw [List.take_succ_cons, h1] at hk
        exact h2 _ _ hk
  refine ⟨?_, ?_, ?_⟩
  · exact local_simple ascii_simple ascii_senc fun s => key s _ (fun b => if b.toNat < 0x80 then .char b.toNat 1 else .ilseq 0)
      (fun b t => rfl) (by intro b k; split <;> simp) (fun t wc n ht h => (ascii_simple.char_ok t wc n ht h).1)
  · exact local_simple iso8859_1_simple iso8859_1_senc fun s => key s _ (fun b => .char b.toNat 1)
      (fun b t => rfl) (by intro b k; simp) (fun t wc n ht h => (iso8859_1_simple.char_ok t wc n ht h).1)
  · intro r hr
    obtain ⟨e, h, hu, he, _⟩ := sbRows_ok r hr
    rw [he]
    exact local_simple (e.simple h) (e.senc h) fun s => key s _
      (fun b => match e.decode b.toNat with | some wc => .char wc 1 | none => .ilseq 0)
      (fun b t => rfl) (by intro b k; split <;> simp) (fun t wc n ht h' => ((e.simple h).char_ok t wc n ht h').1)

theorem local_mb {m : M MbRet} {w : Nat → W} {T irr : List (List Byte × Nat)} (h : TableOK m w T irr)
    (idx : Nat) (hu : unitOf idx = 1) (hg : M.Good M.RetOK 1 m) {E : Encoder} (e : SimpleEnc E) :
    Local (simpleEntry idx 1 hu (M.simple m hg) e) := by
  refine local_simple _ _ ?_
  intro s wc n k hne h1 h2
  have h1 : m.val s = .char wc n := h1
  have h2 : m.val (s.take n) = .toofew k := h2
  have hn := ((M.simple m hg).char_ok s wc n hne h1).1
  obtain ⟨h3, h4⟩ := (h.dec_iff s wc n hne).1 h1
  have := (h.dec_iff (s.take n) wc n (take_ne hn hne)).2 ⟨by rw [List.length_take]; omega, by
    rw [List.take_take, Nat.min_self]; exact h4⟩
  rw [this] at h2
  cases h2

theorem local_multi : ∀ r ∈ mbRows, Local r.entry :=
  all_cons (local_mb euc_kr_table _ _ _ _) <| all_cons (local_mb cp949_table _ _ _ _) <|
  all_cons (local_mb johab_table _ _ _ _) <| all_cons (local_mb euc_jp_table _ _ _ _) <|
  all_cons (local_mb sjis_table _ _ _ _) <| all_cons (local_mb cp932_table _ _ _ _) <|
  all_cons (local_mb cp932_table _ _ _ _) <| all_cons (local_mb dec_kanji_table _ _ _ _) <|
  all_cons (local_mb euc_cn_table _ _ _ _) <| all_cons (local_mb ces_gbk_table _ _ _ _) <|
  all_cons (local_mb cp936_table _ _ _ _) <| all_cons (local_mb gb18030_2022_table _ _ _ _) <|
  all_cons (local_mb ces_big5_table _ _ _ _) <| all_cons (local_mb cp950_table _ _ _ _) <|
  all_cons (local_mb big5_2003_table _ _ _ _) <| all_cons (local_mb dec_hanyu_table _ _ _ _) <|
  all_cons (local_mb euc_tw_table _ _ _ _) <| all_cons (local_mb isoir165_table _ _ _ _) <|
  all_cons (local_mb gb2312_table _ _ _ _) <| all_cons (local_mb ksc5601_table _ _ _ _) <|
  all_cons (local_mb jisx0208_table _ _ _ _) <| all_cons (local_mb jisx0212_table _ _ _ _) all_nil

/-! ## Unicode encodings -/

theorem local_fixed {idx unit : Nat} {hu : unitOf idx = unit} {D : Decoder} {E : Encoder} (d : SimpleDec D unit) (e : SimpleEnc E)
    (w : Nat) (val : List Byte → Option Nat) (h : d.g = fun s => if s.length < w then .toofew 0 else
      match val s with
      | some wc => .char wc w
      | none => .ilseq 0) : Local (simpleEntry idx unit hu d e) := by
  refine local_simple _ _ ?_
  intro s wc n k hne h1 h2
  rw [h] at h1 h2
  simp only at h1 h2
  split at h1
  · cases h1
  · split at h1
    · cases h1
      rw [if_neg (by rw [List.length_take]; omega)] at h2
      split at h2 <;> cases h2
    · cases h1

theorem local_utf16 {idx : Nat} {hu : unitOf idx = 2} {D : Decoder} {E : Encoder} (d : SimpleDec D 2) (e : SimpleEnc E)
    (u : List Byte → Nat) (hx : ∀ s t, 2 ≤ s.length → u (s ++ t) = u s) (h : d.g = utf16Item u) :
    Local (simpleEntry idx 2 hu d e) := by
  refine local_simple _ _ ?_
  intro s wc n k hne h1 h2
  rw [h] at h1 h2
  have ht : ∀ n, 2 ≤ n → 2 ≤ s.length → u (s.take n) = u s := by
    intro n hn hs
    have := hx (s.take n) (s.drop n) (by rw [List.length_take]; omega)
    rw [List.take_append_drop] at this
    exact this.symm
  unfold utf16Item at h1
  split at h1
  · cases h1
  · split at h1
    · split at h1
      · cases h1
      · split at h1
        · obtain ⟨_, rfl⟩ := MbRet.char.inj h1
          unfold utf16Item at h2
          rw [if_neg (by rw [List.length_take]; omega)] at h2
          split at h2
          · rw [if_neg (by rw [List.length_take]; omega)] at h2
            split at h2 <;> cases h2
          · split at h2 <;> cases h2
        · cases h1
    · next hs =>
      split at h1
      · cases h1
      · cases h1
        unfold utf16Item at h2
        rw [if_neg (by rw [List.length_take]; omega), ht 2 (by omega) (by omega), if_neg hs] at h2
        split at h2 <;> cases h2

theorem local_utf8 : Local utf8_entry := by
  refine local_simple utf8_simple utf8_senc ?_
  intro s wc n k hne h1 h2
  have h1 : utf8Item s = .char wc n := h1
  have h2 : utf8Item (s.take n) = .toofew k := h2
  unfold utf8Item at h1
  split at h1
  · cases h1
  · simp only at h1
    split at h1
    · next h => cases h1; simp [utf8Item, h] at h2
    split at h1
    · cases h1
    split at h1
    · split at h1
      · split at h1
        · obtain ⟨_, rfl⟩ := MbRet.char.inj h1
          simp only [List.take_succ_cons, List.take_zero, utf8Item] at h2
          repeat' split at h2
          all_goals first | cases h2 | (simp_all; done)
        · cases h1
      · cases h1
    split at h1
    · split at h1
      · split at h1
        · obtain ⟨_, rfl⟩ := MbRet.char.inj h1
          simp only [List.take_succ_cons, List.take_zero, utf8Item] at h2
          repeat' split at h2
          all_goals first | cases h2 | (simp_all; done)
        · cases h1
      · cases h1
    split at h1
    · split at h1
      · split at h1
        · obtain ⟨_, rfl⟩ := MbRet.char.inj h1
          simp only [List.take_succ_cons, List.take_zero, utf8Item] at h2
          repeat' split at h2
          all_goals first | cases h2 | (simp_all; done)
        · cases h1
      · cases h1
    · cases h1

theorem local_uni : ∀ A ∈ exactUni, Local A := by
  unfold exactUni
  simp only [List.forall_mem_cons, List.not_mem_nil, false_implies, implies_true, and_true]
  exact ⟨local_utf8, local_utf16 utf16be_simple utf16be_senc u16be (fun _ _ h => u16be_append h) rfl,
    local_utf16 utf16le_simple utf16le_senc u16le (fun _ _ h => u16le_append h) rfl,
    local_fixed utf32be_simple utf32be_senc 4 _ rfl, local_fixed utf32le_simple utf32le_senc 4 _ rfl,
    local_fixed ucs2be_simple ucs2be_senc 2 _ rfl, local_fixed ucs2le_simple ucs2le_senc 2 _ rfl,
    local_fixed ucs2internal_simple ucs2internal_senc 2 _ rfl, local_fixed ucs2swapped_simple ucs2swapped_senc 2 _ rfl,
    local_fixed ucs4be_simple ucs4be_senc 4 (fun s => some (u32be s)) rfl, local_fixed ucs4le_simple ucs4le_senc 4 (fun s => some (u32le s)) rfl,
    local_fixed ucs4internal_simple ucs4internal_senc 4 (fun s => some (u32le s)) rfl, local_fixed ucs4swapped_simple ucs4swapped_senc 4 (fun s => some (u32be s)) rfl⟩

/-! ## Encodings with byte order marks -/

theorem local_mark {A : Entry} (unit : Nat) (kind : Nat → List Byte → MarkItem) (hu : 1 ≤ unit)
    (ha : A.atom = markAtom unit kind)
    (hc : ∀ st s wc n, unit ≤ s.length → kind st s = .char wc n → unit ≤ n ∧ n ≤ s.length)
    (hb : ∀ st s n, unit ≤ n → n ≤ s.length → kind st (s.take n) = .brk →
      kind st s ≠ .keep ∧ kind st s ≠ .flip ∧ ∀ wc, kind st s ≠ .char wc n) : Local A := by
  have key : ∀ (is : IState) (s : List Byte) n, unit ≤ n → n ≤ s.length → markAtom unit kind is (s.take n) = .more → kind is.bo (s.take n) = .brk := by
    intro is s n h1 h2 h
    unfold markAtom at h
    rw [if_neg (by rw [List.length_take]; omega)] at h
    split at h <;> first | assumption | cases h
  intro is s _ hne
  rw [ha]
  constructor
  · intro wc n is' h
    unfold markAtom at h
    split at h
    · cases h
    · next hl =>
      split at h
      · cases h
      · cases h
      · next hk =>
        cases h
        obtain ⟨h1, h2⟩ := hc _ _ _ _ (by omega) hk
        refine .inl ⟨by omega, fun hm => ?_⟩
        exact (hb _ _ _ h1 h2 (key _ _ _ h1 h2 hm)).2.2 _ hk
      · cases h
      · cases h
  · intro n is' h
    unfold markAtom at h
    split at h
    · cases h
    · next hl =>
      split at h
      · next hk => cases h; exact ⟨hu, fun hm => (hb _ _ _ (Nat.le_refl _) (by omega) (key _ _ _ (Nat.le_refl _) (by omega) hm)).1 hk⟩
      · next hk => cases h; exact ⟨hu, fun hm => (hb _ _ _ (Nat.le_refl _) (by omega) (key _ _ _ (Nat.le_refl _) (by omega) hm)).2.1 hk⟩
      · cases h
      · cases h
      · cases h

theorem local_ucs2 : Local ucs2_entry := by
  refine local_mark 2 ucs2Kind (by omega) rfl ?_ ?_
  · intro st s wc n hl h
    unfold ucs2Kind at h
    repeat' split at h
    all_goals cases h
    omega
  · intro st s n _ _ h
    unfold ucs2Kind at h
    repeat' split at h
    all_goals cases h

theorem local_ucs4 : Local ucs4_entry := by
  refine local_mark 4 ucs4Kind (by omega) rfl ?_ ?_
  · intro st s wc n hl h
    unfold ucs4Kind at h
    repeat' split at h
    all_goals cases h
    omega
  · intro st s n _ _ h
    unfold ucs4Kind at h
    repeat' split at h
    all_goals cases h

theorem local_utf32 : Local utf32_entry := by
  refine local_mark 4 utf32Kind (by omega) rfl ?_ ?_
  · intro st s wc n hl h
    unfold utf32Kind at h
    repeat' split at h
    all_goals cases h
    omega
  · intro st s n _ _ h
    unfold utf32Kind at h
    repeat' split at h
    all_goals cases h

theorem local_utf16m : Local utf16_entry := by
  have hx : ∀ st (s t : List Byte), 2 ≤ s.length → u16 st (s ++ t) = u16 st s := fun st s t h => u16_append h
  refine local_mark 2 utf16Kind (by omega) rfl ?_ ?_
  · intro st s wc n hl h
    unfold utf16Kind at h
    repeat' split at h
    all_goals first
      | (obtain ⟨_, rfl⟩ := MarkItem.char.inj h; omega)
      | cases h
  · intro st s n h1 h2 h
    have ht : u16 st (s.take n) = u16 st s := by
      have := hx st (s.take n) (s.drop n) (by rw [List.length_take]; omega)
      rw [List.take_append_drop] at this
      exact this.symm
    unfold utf16Kind at h
    rw [ht, List.length_take] at h
    split at h
    · cases h
    split at h
    · cases h
    split at h
    · next a b c =>
      unfold utf16Kind
      rw [if_neg a, if_neg b, if_pos c]
      split at h
      · refine ⟨?_, ?_, ?_⟩
        · repeat' split
          all_goals simp
        · repeat' split
          all_goals simp
        · intro wc hc
          repeat' split at hc
          all_goals first
            | (obtain ⟨_, rfl⟩ := MarkItem.char.inj hc; omega)
            | cases hc
      · split at h <;> cases h
    · split at h <;> cases h

/-! ## Encodings with combining characters -/

theorem local_comp {A : Entry} (d : CompDec) (ha : A.atom = d.atom) : Local A := by
  intro is s _ hne
  rw [ha]
  cases s with
  | nil => exact absurd rfl hne
  | cons b t =>
    have hd : ∀ is n, d.byte b.toNat ≠ none → 1 ≤ n → d.atom is ((b :: t).take n) ≠ .more := by
      intro is n hb hn hc
      cases n with
      | zero => omega
      | succ n =>
        rw [List.take_succ_cons] at hc
        unfold CompDec.atom at hc
        simp only at hc
        repeat' split at hc
        all_goals cases hc
    constructor
    · intro wc n is' h
      unfold CompDec.atom at h
      simp only at h
      split at h
      · cases h
      · next w hb =>
        have hb' : d.byte b.toNat ≠ none := by rw [hb]; simp
        split at h
        · next hst =>
          split at h
          · split at h
            · cases h
            · cases h; exact .inl ⟨by omega, hd _ _ hb' (by omega)⟩
          · cases h
            refine .inr (.inr ⟨rfl, 1, by omega, by simp, hd _ _ hb' (by omega), ?_⟩)
            have e : d.atom { is with st := 0 } ((b :: t).take 1) =
                if d.isB w then .shift 1 { is with st := w } else .char w 1 { is with st := 0 } := by
              unfold CompDec.atom
              simp [hb]
            rw [e]
            split
            · exact .inr ⟨_, rfl⟩
            · exact .inl ⟨_, _, rfl⟩
        · split at h
          · cases h
          · cases h; exact .inl ⟨by omega, hd _ _ hb' (by omega)⟩
    · intro n is' h
      have hn := CompDec.atom_shift h
      subst hn
      refine ⟨by omega, hd _ _ ?_ (by omega)⟩
      intro hb
      unfold CompDec.atom at h
      simp only [hb] at h
      cases h

/-! ## Encodings with pairs of characters -/

theorem local_pair {m : M MbRet} {w : Nat → W} {T irr : List (List Byte × Nat)} {idx : Nat} {hu : unitOf idx = 1} {body : M SItem}
    {hd : M.Good PairItemOK 1 body} {I : Nat → Prop} {comp : Nat → Nat → Option (List Nat)} {last : Nat → List Nat}
    {base : Nat → Nat → BW} {he : PairGood I comp last base} {hold : Nat → Nat} {C : List (List Byte × Nat × Nat)}
    (ht : TableOK m w T irr) (h : PairRel body comp last base m w hold C) : Local (pairEntry idx hu hd he) := by
  intro is s hI hne
  have ea : ∀ is s, (pairEntry idx hu hd he).atom is s = satom (pairItem body) is s := fun _ _ => rfl
  have hb0 : is.bo = 0 := hI.1
  simp only [ea]
  by_cases hs : is.st = 0
  · have e : ∀ s, satom (pairItem body) is s = match body.run s with
        | .ok (some (.char wc n st)) => .char wc n { is with st := st }
        | .ok (some (.shift n st)) => .shift n { is with st := st }
        | .ok (some .ilseq) => .ilseq
        | _ => .more := by
      intro s; unfold satom pairItem; rw [if_neg (by simpa using hs)]; rfl
    obtain ⟨o, h1, h2⟩ := M.good_run body 1 s hd (one_le_length hne)
    have h2 := h2
    simp only [e, h1]
    cases o with
    | none => exact ⟨fun _ _ _ h => (by cases h), fun _ _ h => by cases h⟩
    | some x =>
      obtain ⟨j, _, _, hp⟩ := h2 x rfl
      cases x with
      | ilseq => exact ⟨fun _ _ _ h => (by cases h), fun _ _ h => by cases h⟩
      | shift n st => exact hp.elim
      | char wc n st =>
        refine ⟨?_, fun _ _ h => by cases h⟩
        intro wc' n' is' h3
        cases h3
        have hn : 1 ≤ n := hp.2.1
        refine .inl ⟨hn, ?_⟩
        have : ∃ wc' n' st', body.run (s.take n) = .ok (some (.char wc' n' st')) := by
          rcases h.dec2 s wc n st hne h1 with ⟨rfl, h4⟩ | ⟨_, h4, h5⟩
          · obtain ⟨h6, h7⟩ := (ht.dec_iff s wc n hne).1 (M.val_of_run h4)
            have h8 := (ht.dec_iff (s.take n) wc n (take_ne hn hne)).2 ⟨by rw [List.length_take]; omega, by
              rw [List.take_take, Nat.min_self]; exact h7⟩
            exact ⟨_, _, _, h.dec1 _ _ _ (M.val_char h8)⟩
          · exact ⟨_, _, _, (h.dec3 _ _ _ h5).2.2⟩
        obtain ⟨a, b, c, h9⟩ := this
        rw [h9]
        simp
  · have e : ∀ s, satom (pairItem body) is s = .char is.st 0 { is with st := 0 } := by
      intro s; unfold satom pairItem; rw [if_pos (by simpa using hs)]; rfl
    simp only [e]
    refine ⟨?_, fun _ _ h => by cases h⟩
    intro wc n is' h3
    cases h3
    refine .inr (.inl ⟨rfl, fun _ _ => rfl, ?_, ?_⟩)
    · show (pairDec body).kept is = _
      obtain ⟨bo, st⟩ := is
      cases hb0
      rw [pair_kept, if_pos hs]
    · show (pairDec body).kept _ = _
      obtain ⟨bo, st⟩ := is
      cases hb0
      rw [pair_kept, if_neg (by simp)]

theorem local_pairs : ∀ r ∈ pairRows, Local r.entry :=
  all_cons (local_pair hk1999_table (hk_rel hk1999_two hk1999_dgood hk1999_pairs)) <|
  all_cons (local_pair hk2001_table (hk_rel hk2001_two hk2001_dgood hk2001_pairs)) <|
  all_cons (local_pair hk2004_table (hk_rel hk2004_two hk2004_dgood hk2004_pairs)) <|
  all_cons (local_pair hk2008_table (hk_rel hk2008_two hk2008_dgood hk2008_pairs)) <|
  all_cons (local_pair euc_jx_ok (euc_jx_rel euc_jx_ok)) <|
  all_cons (local_pair sjx_ok (sjx_rel sjx_ok)) all_nil

/-! ## Encodings with shift states -/

/-- Every item of the program has at least as many bytes as were looked at for it (`k` so far). -/
def Loc : Nat → M SItem → Prop
  | k, .ret (.char _ n _) => k ≤ n
  | k, .ret (.shift n _) => k ≤ n
  | _, .ret .ilseq => True
  | _, .ub => True
  | _, .abort => True
  | k, .need j t => Loc (max k j) t
  | k, .byte i f => ∀ b, Loc (max k (i + 1)) (f b)

theorem loc_run : ∀ (m : M SItem) (k n : Nat) (s : List Byte) (x : SItem), Loc k m → m.run s = .ok (some x) →
    ((∃ wc st, x = .char wc n st) ∨ ∃ st, x = .shift n st) → n ≤ s.length →
    k ≤ n ∧ m.run (s.take n) = .ok (some x) := by
  intro m
  induction m with
  | ret a =>
    intro k n s x h hr hx hl
    simp only [M.run, Outcome.ok.injEq, Option.some.injEq] at hr
    subst hr
    rcases hx with ⟨wc, st, rfl⟩ | ⟨st, rfl⟩ <;> exact ⟨h, rfl⟩
  | ub => intro k n s x _ hr; cases hr
  | abort => intro k n s x _ hr; cases hr
  | need j t ih =>
    intro k n s x h hr hx hl
    simp only [M.run] at hr ⊢
    split at hr
    · obtain ⟨h1, h2⟩ := ih (max k j) n s x h hr hx hl
      rw [if_pos (by rw [List.length_take]; omega)]
      exact ⟨by omega, h2⟩
    · cases hr
  | byte i f ih =>
    intro k n s x h hr hx hl
    simp only [M.run] at hr ⊢
    cases hb : s[i]? with
    | none => rw [hb] at hr; cases hr
    | some b =>
      rw [hb] at hr
      obtain ⟨h1, h2⟩ := ih _ (max k (i + 1)) n s x (h _) hr hx hl
      rw [List.getElem?_take_of_lt (by omega), hb]
      exact ⟨by omega, h2⟩

theorem loc_ret_char {k wc n st : Nat} (h : k ≤ n) : Loc k (.ret (.char wc n st)) := h
theorem loc_ret_shift {k n st : Nat} (h : k ≤ n) : Loc k (.ret (.shift n st)) := h
theorem loc_ilseq {k : Nat} : Loc k (.ret .ilseq) := trivial
theorem loc_abort {k : Nat} : Loc k .abort := trivial
theorem loc_need {k j : Nat} {t : M SItem} (h : Loc (max k j) t) : Loc k (.need j t) := h
theorem loc_byte {k i : Nat} {f : Nat → M SItem} (h : ∀ b, Loc (max k (i + 1)) (f b)) : Loc k (.byte i f) := h
theorem loc_ite {k : Nat} {P : Prop} [Decidable P] {a b : M SItem} (ha : Loc k a) (hb : Loc k b) : Loc k (if P then a else b) := by
  split <;> assumption

theorem loc_on {k : Nat} {m : M MbRet} {buf : List Nat} {f : MbRet → M SItem} (h : ∀ r, Loc k (f r)) : Loc k (m.on buf f) := by
  unfold M.on
  split <;> first | exact h _ | trivial

theorem loc_sOne {k b : Nat} {m : M MbRet} {f : Nat → M SItem} (h : ∀ wc, Loc k (f wc)) : Loc k (sOne m b f) :=
  loc_on fun _ => loc_ite loc_ilseq (loc_ite loc_abort (h _))

theorem loc_sTwo {k b c : Nat} {m : M MbRet} {f : Nat → M SItem} (h : ∀ wc, Loc k (f wc)) : Loc k (sTwo m b c f) :=
  loc_on fun _ => loc_ite loc_ilseq (loc_ite loc_abort (h _))

theorem loc_sPair {k st : Nat} {m : M MbRet} (h : k ≤ 2) : Loc k (sPair m st) :=
  loc_need <| loc_byte fun _ => loc_byte fun _ => loc_ite (loc_sTwo fun _ => loc_ret_char (by omega)) loc_ilseq

/-- Take a loop body apart. -/
macro "locs" : tactic => `(tactic| set_option maxRecDepth 2000 in repeat' (with_reducible first
  | exact loc_ilseq
  | exact loc_abort
  | refine loc_ret_char ?_
  | refine loc_ret_shift ?_
  | refine loc_sPair ?_
  | refine loc_sTwo ?_
  | refine loc_sOne ?_
  | refine loc_byte ?_
  | refine loc_need ?_
  | refine loc_ite ?_ ?_
  | intro _
  | omega
  | dsimp only))

theorem local_st {idx : Nat} {hu : unitOf idx = 1} {D : Decoder} {E : Encoder} (d : StDec D) (g : StEnc E)
    (hp : ∀ is : IState, d.I is.st → (∃ wc st', d.item is.st = .ret (.char wc 0 st') ∧ D.kept is = [wc] ∧ D.kept { is with st := st' } = []) ∨
      Loc 1 (d.item is.st)) : Local (stEntry idx hu d g) := by
  intro is s hI hne
  have hI : is.bo = 0 ∧ d.I is.st := hI
  have ea : ∀ is s, (stEntry idx hu d g).atom is s = satom d.item is s := fun _ _ => rfl
  simp only [ea]
  rcases hp is hI.2 with ⟨wc, st', h1, h2, h3⟩ | h1
  · have e : ∀ s, satom d.item is s = .char wc 0 { is with st := st' } := by
      intro s; unfold satom; rw [h1]; rfl
    simp only [e]
    refine ⟨?_, fun _ _ h => by cases h⟩
    intro wc n is' h
    cases h
    exact .inr (.inl ⟨rfl, fun _ _ => rfl, h2, h3⟩)
  · have e : ∀ o, (d.item is.st).run s = .ok o → satom d.item is s = match o with
        | some (.char wc n st) => .char wc n { is with st := st }
        | some (.shift n st) => .shift n { is with st := st }
        | some .ilseq => .ilseq
        | none => .more := by
      intro o h
      unfold satom
      rw [h]
      cases o with
      | none => rfl
      | some x => cases x <;> rfl
    obtain ⟨o, h2, h3⟩ := d.run hI.2 hne
    have key : ∀ x n, o = some x → ((∃ wc st, x = .char wc n st) ∨ ∃ st, x = .shift n st) →
        1 ≤ n ∧ satom d.item is (s.take n) ≠ .more := by
      intro x n ho hx
      subst ho
      have hl : n ≤ s.length := by
        have := h3 x rfl
        rcases hx with ⟨wc, st, rfl⟩ | ⟨st, rfl⟩ <;> exact this.2.1
      obtain ⟨h4, h5⟩ := loc_run _ 1 n s x h1 h2 hx hl
      refine ⟨h4, ?_⟩
      unfold satom
      rw [h5]
      rcases hx with ⟨wc, st, rfl⟩ | ⟨st, rfl⟩ <;> simp
    rw [e o h2]
    cases o with
    | none => exact ⟨fun _ _ _ h => (by cases h), fun _ _ h => by cases h⟩
    | some x =>
      cases x with
      | ilseq => exact ⟨fun _ _ _ h => (by cases h), fun _ _ h => by cases h⟩
      | char wc n st =>
        refine ⟨?_, fun _ _ h => by cases h⟩
        intro wc' n' is' h
        cases h
        exact .inl (key _ _ rfl (.inl ⟨_, _, rfl⟩))
      | shift n st =>
        refine ⟨fun _ _ _ h => (by cases h), ?_⟩
        intro n' is' h
        cases h
        exact key _ _ rfl (.inr ⟨_, rfl⟩)

theorem local_hz : Local hz_entry := local_st hz_dec hz_enc fun is _ => .inr (by
  show Loc 1 (hz_item is.st); unfold hz_item; locs)
theorem local_kr : Local iso2022_kr_entry := local_st iso2022_kr_dec iso2022_kr_enc fun is _ => .inr (by
  show Loc 1 (iso2022_kr_item is.st); unfold iso2022_kr_item; locs)
theorem local_cn : Local iso2022_cn_entry := local_st iso2022_cn_dec iso2022_cn_enc fun is _ => .inr (by
  show Loc 1 (iso2022_cn_item is.st); unfold iso2022_cn_item; locs)
theorem local_cn_ext : Local iso2022_cn_ext_entry := local_st iso2022_cn_ext_dec iso2022_cn_ext_enc fun is _ => .inr (by
  show Loc 1 (iso2022_cn_ext_item is.st); unfold iso2022_cn_ext_item cx_ss3; locs)
theorem local_jp : Local iso2022_jp_entry := local_st iso2022_jp_dec iso2022_jp_enc fun is _ => .inr (by
  show Loc 1 (iso2022_jp_item is.st); unfold iso2022_jp_item; locs)
theorem local_jp1 : Local iso2022_jp1_entry := local_st iso2022_jp1_dec iso2022_jp1_enc fun is _ => .inr (by
  show Loc 1 (iso2022_jp1_item is.st); unfold iso2022_jp1_item; locs)
theorem local_jp2 : Local iso2022_jp2_entry := local_st iso2022_jp2_dec iso2022_jp2_enc fun is _ => .inr (by
  show Loc 1 (iso2022_jp2_item is.st); unfold iso2022_jp2_item jp2_ss2; locs)
theorem local_jpms : Local iso2022_jpms_entry := local_st iso2022_jpms_dec iso2022_jpms_enc fun is _ => .inr (by
  show Loc 1 (iso2022_jpms_item is.st); unfold iso2022_jpms_item; locs)

theorem loc_jxToM {k row col : Nat} {f : Nat → M SItem} (h : ∀ v, Loc k (f v)) : Loc k (jxToM row col f) := by
  unfold jxToM
  split <;> first | exact h _ | trivial

theorem loc_jp3Code {k st v : Nat} (h : k ≤ 2) : Loc k (.ret (jp3Code st v)) := by
  unfold jp3Code
  split
  · trivial
  · split <;> exact h

theorem local_jp3 : Local iso2022_jp3_entry := local_st iso2022_jp3_dec iso2022_jp3_enc fun is _ => by
  by_cases h : is.st >>> 3 = 0
  · refine .inr ?_
    show Loc 1 (iso2022_jp3_item is.st)
    unfold iso2022_jp3_item
    rw [if_neg (by simpa using h)]
    unfold iso2022_jp3_body
    locs
    all_goals exact loc_jxToM fun _ => loc_jp3Code (by omega)
  · refine .inl ⟨is.st >>> 3, is.st &&& 7, ?_, ?_, ?_⟩
    · show iso2022_jp3_item is.st = _
      unfold iso2022_jp3_item
      rw [if_pos h]
    · show (iso2022_jp3_flushwc is).1.toList = _
      unfold iso2022_jp3_flushwc
      rw [if_pos h]; rfl
    · show (iso2022_jp3_flushwc { is with st := is.st &&& 7 }).1.toList = _
      unfold iso2022_jp3_flushwc
      have : (is.st &&& 7) >>> 3 = 0 := by
        have : is.st &&& 7 ≤ 7 := Nat.and_le_right
        rw [Nat.shiftRight_eq_div_pow]
        exact Nat.div_eq_of_lt (by omega)
      rw [if_neg (by simpa using this)]; rfl

/-- The source encodings whose converters look past the end of the sequence they read: C99, JAVA and UTF-7. -/
def lookIdx : List Nat := [ei_c99, ei_java, ei_utf7]

theorem local_shifts : ∀ r ∈ shiftRows, r.entry.idx ∉ lookIdx → Local r.entry := by
  simp only [shiftRows, List.forall_mem_cons]
  refine ⟨fun _ => local_hz, fun _ => local_kr, fun _ => local_cn, fun _ => local_cn_ext, fun _ => local_jp,
    fun _ => local_jp1, fun _ => local_jp2, fun _ => local_jp3, fun _ => local_jpms, fun h => ?_, by simp⟩
  exact absurd (show utf7_entry.idx ∈ lookIdx from by decide +kernel) h

theorem local_others : ∀ A ∈ otherEntries, A.idx ∉ lookIdx → Local A := by
  simp only [otherEntries, List.forall_mem_cons]
  refine ⟨fun _ => local_ucs2, fun _ => local_ucs4, fun _ => local_utf16m, fun _ => local_utf32, fun h => ?_, fun h => ?_,
    fun _ => local_comp cp1255_d rfl, fun _ => local_comp cp1258_d rfl, fun _ => local_comp tcvn_d rfl, by simp⟩
  · exact absurd (show c99_entry.idx ∈ lookIdx from by decide +kernel) h
  · exact absurd (show java_entry.idx ∈ lookIdx from by decide +kernel) h

theorem local_sources : ∀ A ∈ sources, A.idx ∉ lookIdx → Local A := by
  intro A hA hl
  rcases List.mem_cons.1 hA with rfl | hA
  · exact local_mb gb18030_2005_table _ _ _ _
  · cases targets_kinds A hA with
    | single r h e => subst e; exact local_single r h
    | multi r h e => subst e; exact local_multi r h
    | uni h => exact local_uni A h
    | pair r h e => subst e; exact local_pairs r h
    | shift r h e => subst e; exact local_shifts r h hl
    | other h => exact local_others A h hl

end Skip

end Reiconv
