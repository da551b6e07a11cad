import Verif.Codec.IsoFollow2
import Verif.Codec.SimJp2

/-!
# The decoder of ISO-2022-JP-2 follows the specification
-/

namespace Reiconv.Iso

def jp2Set : Nat → Set
  | 0 => .ascii
  | 1 => .roman
  | 2 => .kana
  | 3 => .jisx0208
  | 4 => .jisx0212
  | 5 => .gb2312
  | _ => .ksc5601

def jp2G2 : Nat → Option Set
  | 0 => none
  | 1 => some (.latin1 0)
  | _ => some (.greek 0)

def jp2Regs (s1 s2 : Nat) : Regs := ⟨jp2Set s1, none, jp2G2 s2, none, false⟩

def jp2_rep (st : Nat) : Regs := jp2Regs (st % 256) (st / 256)

theorem jp2_rep_eq {s1 s2 : Nat} (h : s1 ≤ 6) : jp2_rep (jp2St s1 s2) = jp2Regs s1 s2 := by
  unfold jp2_rep
  rw [jp2_1 h, jp2_2 h]

theorem iso8859_7_run {x : Byte} {wc : Nat} : iso8859_7_m.run [x] = .ok (some (.char wc 1)) ↔ (x.toNat, wc) ∈ iso8859_7_from := by
  rw [← SB.dec_sound iso8859_7_safe iso8859_7_chkDec x.toNat wc x.toNat_lt, SB.decode_fast iso8859_7_safe]
  unfold iso8859_7_m
  rw [M.run_byte0, sbDecode_fast (by decide)]
  show _ ↔ ofCode (decF iso8859_7_d x.toNat) = some wc
  cases ofCode (decF iso8859_7_d x.toNat) with
  | none => exact ⟨fun h => (nomatch h), fun h => (nomatch h)⟩
  | some v =>
    constructor
    · intro h; cases h; rfl
    · intro h; cases h; rfl

theorem hi_low {x : Byte} (h : x.toNat < 0x80) : (u8 (x.toNat + 0x80)).toNat = x.toNat + 0x80 := by
  rw [u8_toNat]; omega

theorem latin1_chars {c : Byte} (h : c.toNat < 0x80) {wc : Nat}
    (hw : iso8859_1_m.run [u8 (c.toNat + 0x80)] = .ok (some (.char wc 1))) : (Set.latin1 0).Chars [c] [wc] := by
  have e : iso8859_1_m.run [u8 (c.toNat + 0x80)] = .ok (some (.char (u8 (c.toNat + 0x80)).toNat 1)) := rfl
  rw [e, hi_low h] at hw
  cases hw
  exact ⟨c, Nat.zero_le _, h, rfl, rfl⟩

theorem greek_chars {c : Byte} (h : c.toNat < 0x80) {wc : Nat}
    (hw : iso8859_7_m.run [u8 (c.toNat + 0x80)] = .ok (some (.char wc 1))) : (Set.greek 0).Chars [c] [wc] := by
  have := iso8859_7_run.1 hw
  rw [hi_low h] at this
  exact ⟨c, wc, Nat.zero_le _, h, rfl, this, rfl⟩

/-- A byte of the upper half given to a one-byte character set. -/
theorem all_high {Q : SItem → Prop} {m : M MbRet} (h1 : M.One m) {a : Byte} {k : Nat → M SItem} {s : List Byte} (hl : a.toNat < 0x80)
    (hQ : Q .ilseq) (hk : ∀ wc, m.run [u8 (a.toNat + 0x80)] = .ok (some (.char wc 1)) → All Q (k wc) s) :
    All Q (sOne m (a.toNat + 0x80) k) s := by
  have := all_sOne (a := u8 (a.toNat + 0x80)) h1 hQ hk
  rw [hi_low hl] at this
  exact this

section
variable {P : Profile} {rep : Nat → Regs} {st st' : Nat} {s : List Byte} {a b c d : Byte}

theorem line_step (hP : P.shifts = false) {x : Set} (h0 : s[0]? = some c) (hc : c.toNat ≠ 0x1b) {wc : Nat}
    (hw : x.Chars [c] [wc]) (hg : (rep st).current = some x)
    (hr : rep st' = P.after (rep st) [c]) : ItemReads P.Step rep (fun _ => []) st s (.char wc 1 st') := by
  show P.Step (rep st) (s.take 1) [wc] (rep st')
  rw [take1 h0, hr]
  refine .char _ x _ _ hg hw ?_
  intro y hy
  rw [List.mem_singleton] at hy
  subst hy
  exact control_no hP hc

theorem ss2_one {x : Set} (h0 : s[0]? = some a) (h1 : s[1]? = some b) (h2 : s[2]? = some c)
    (e0 : a.toNat = 0x1b) (e1 : b.toNat = 0x4e) {wc : Nat} (hw : x.Chars [c] [wc]) (hg : (rep st).g2 = some x)
    (hr : rep st' = rep st) : ItemReads P.Step rep (fun _ => []) st s (.char wc 3 st') := by
  show P.Step (rep st) (s.take 3) [wc] (rep st')
  rw [take3 h0 h1 h2, hr, byte_eq e0, byte_eq e1]
  exact .ss2 _ x _ _ hg hw

end

theorem roman_line {c : Byte} (h : c.toNat < 0x80) {wc : Nat} (hw : jisx0201_m.run [c] = .ok (some (.char wc 1))) :
    (wc = 0x0a ∨ wc = 0x0d) ↔ (c.toNat = 0x0a ∨ c.toNat = 0x0d) := by
  rw [roman_run h] at hw
  simp only [Outcome.ok.injEq, Option.some.injEq, MbRet.char.injEq, and_true] at hw
  rw [← hw]
  split
  · omega
  · split <;> omega

theorem kana_not_line {c : Byte} {wc : Nat} (h : Set.kana.Chars [c] [wc]) : ¬ (c.toNat = 0x0a ∨ c.toNat = 0x0d) := by
  obtain ⟨x, h1, h2, h3, _⟩ := h
  cases h3
  omega

theorem jp2_follows : Follows iso2022_jp2_dec (jp2 0 true).Step jp2_rep (fun _ => []) where
  start := rfl
  kept := fun _ _ => rfl
  held := fun _ _ h => absurd rfl h
  sound := by
    intro st s hI _
    have hI : jp2DI st := hI
    obtain ⟨i1, i2⟩ := hI
    show All _ (iso2022_jp2_item st) s
    unfold iso2022_jp2_item
    have hst : jp2_rep st = jp2Regs (st % 256) (st / 256) := rfl
    generalize st % 256 = s1 at *
    generalize st / 256 = s2 at *
    dsimp only
    refine all_byte fun c hc => all_ite (fun h => ?_) fun h => ?_
    · refine all_need (all_byte fun c1 h1 => all_byte fun c2 h2 => ?_)
      refine all_ite (fun e1 => ?_) fun _ => all_ite (fun e1 => ?_) fun _ => all_ite (fun e1 => ?_) fun _ =>
        all_ite (fun e1 => ?_) fun _ => all_ret trivial
      · refine all_ite (fun e2 => all_ret ?_) fun _ => all_ite (fun e2 => all_ret ?_) fun _ =>
          all_ite (fun e2 => all_ret ?_) fun _ => all_ret trivial
        · exact esc3 hc h1 h2 h e1 e2 (r := .G0) (x := .ascii) (by desig_mem) (by rw [jp2_rep_eq (by omega), hst]; rfl) rfl
        · exact esc3 hc h1 h2 h e1 e2 (r := .G0) (x := .roman) (by desig_mem) (by rw [jp2_rep_eq (by omega), hst]; rfl) rfl
        · exact esc3 hc h1 h2 h e1 e2 (r := .G0) (x := .kana) (by desig_mem) (by rw [jp2_rep_eq (by omega), hst]; rfl) rfl
      · refine all_ite (fun e2 => all_ret ?_) fun _ => all_ite (fun e2 => all_ret ?_) fun _ =>
          all_ite (fun e2 => ?_) fun _ => all_ret trivial
        · rcases e2 with e2 | e2
          · exact esc3 hc h1 h2 h e1 e2 (r := .G0) (x := .jisx0208) (by desig_mem) (by rw [jp2_rep_eq (by omega), hst]; rfl) rfl
          · exact esc3 hc h1 h2 h e1 e2 (r := .G0) (x := .jisx0208) (by desig_mem) (by rw [jp2_rep_eq (by omega), hst]; rfl) rfl
        · exact esc3 hc h1 h2 h e1 e2 (r := .G0) (x := .gb2312) (by desig_mem) (by rw [jp2_rep_eq (by omega), hst]; rfl) rfl
        · refine all_need (all_byte fun c3 h3 => all_ite (fun e3 => all_ret ?_) fun _ => all_ite (fun e3 => all_ret ?_) fun _ => all_ret trivial)
          · exact esc4 hc h1 h2 h3 h e1 e2 e3 (r := .G0) (x := .jisx0212) (by desig_mem) (by rw [jp2_rep_eq (by omega), hst]; rfl) rfl
          · exact esc4 hc h1 h2 h3 h e1 e2 e3 (r := .G0) (x := .ksc5601) (by desig_mem) (by rw [jp2_rep_eq (by omega), hst]; rfl) rfl
      · refine all_ite (fun e2 => all_ret ?_) fun _ => all_ite (fun e2 => all_ret ?_) fun _ => all_ret trivial
        · exact esc3 hc h1 h2 h e1 e2 (r := .G2) (x := .latin1 0) (by desig_mem) (by rw [jp2_rep_eq (by omega), hst]; rfl) rfl
        · exact esc3 hc h1 h2 h e1 e2 (r := .G2) (x := .greek 0) (by desig_mem) (by rw [jp2_rep_eq (by omega), hst]; rfl) rfl
      · unfold jp2_ss2
        refine all_ite (fun _ => all_ret trivial) fun _ => all_ite (fun hs => ?_) fun _ => all_ite (fun hs => ?_) fun _ => all_abort
        · subst hs
          refine all_ite (fun hl => all_high iso8859_1_m_one hl trivial fun wc hw => all_ret ?_) fun _ => all_ret trivial
          exact ss2_one hc h1 h2 h e1 (latin1_chars hl hw) (by rw [hst]; rfl) (by rw [jp2_rep_eq (by omega), hst])
        · subst hs
          refine all_ite (fun hl => all_high iso8859_7_m_one hl trivial fun wc hw => all_ret ?_) fun _ => all_ret trivial
          exact ss2_one hc h1 h2 h e1 (greek_chars hl hw) (by rw [hst]; rfl) (by rw [jp2_rep_eq (by omega), hst])
    · refine all_ite (fun h1 => ?_) fun _ => all_ite (fun h1 => ?_) fun _ => all_ite (fun h1 => ?_) fun _ =>
        all_ite (fun h1 => ?_) fun _ => all_ite (fun h1 => ?_) fun _ => all_ite (fun h1 => ?_) fun _ =>
        all_ite (fun h1 => ?_) fun _ => all_abort
      all_goals subst h1
      · refine all_ite (fun hl => all_sOne ascii_one trivial fun wc hw => all_ret ?_) fun _ => all_ret trivial
        have hwc : wc = c.toNat := by rw [ascii_run hl] at hw; cases hw; rfl
        refine line_step rfl hc h (ascii_chars hl hw) (by rw [hst]; rfl) ?_
        rw [after_line rfl, hst, hwc]
        by_cases hn : c.toNat = 0x0a ∨ c.toNat = 0x0d
        · rw [if_pos hn, if_pos hn, jp2_rep_eq (by omega)]; rfl
        · rw [if_neg hn, if_neg hn, jp2_rep_eq (by omega)]
      · refine all_ite (fun hl => all_sOne jisx0201_m_one trivial fun wc hw => all_ret ?_) fun _ => all_ret trivial
        refine line_step rfl hc h (roman_chars hl hw) (by rw [hst]; rfl) ?_
        rw [after_line rfl, hst]
        by_cases hn : wc = 0x0a ∨ wc = 0x0d
        · rw [if_pos hn, if_pos ((roman_line hl hw).1 hn), jp2_rep_eq (by omega)]; rfl
        · rw [if_neg hn, if_neg (fun h => hn ((roman_line hl hw).2 h)), jp2_rep_eq (by omega)]
      · refine all_ite (fun hl => all_kana hl trivial fun wc hw => all_ret ?_) fun _ => all_ret trivial
        refine line_step rfl hc h (kana_chars hl hw) (by rw [hst]; rfl) ?_
        rw [after_line rfl, hst, if_neg (kana_not_line (kana_chars hl hw)), jp2_rep_eq (by omega)]
      · exact all_sPair jisx0208_two.two trivial fun a b wc ha hb hm =>
          pair_step jisx0208_two ha hb hm (by rw [hst]; rfl) (by rw [jp2_rep_eq (by omega), hst]) rfl
      · exact all_sPair jisx0212_two.two trivial fun a b wc ha hb hm =>
          pair_step jisx0212_two ha hb hm (by rw [hst]; rfl) (by rw [jp2_rep_eq (by omega), hst]) rfl
      · exact all_sPair gb2312_two.two trivial fun a b wc ha hb hm =>
          pair_step gb2312_two ha hb hm (by rw [hst]; rfl) (by rw [jp2_rep_eq (by omega), hst]) rfl
      · exact all_sPair ksc5601_two.two trivial fun a b wc ha hb hm =>
          pair_step ksc5601_two ha hb hm (by rw [hst]; rfl) (by rw [jp2_rep_eq (by omega), hst]) rfl
  complete := by
    intro st b w g' hI _ hstep
    have hI : jp2DI st := hI
    obtain ⟨i1, i2⟩ := hI
    show b ≠ [] ∧ ∃ st', jp2_rep st' = g' ∧ ((w = [] ∧ [] = [] ∧ (iso2022_jp2_item st).run b = _) ∨
      ∃ wc, w = [wc] ∧ (iso2022_jp2_item st).run b = _)
    have he := jp2_eta (st := st)
    generalize st % 256 = s1 at *
    generalize st / 256 = s2 at *
    subst he
    have hst := jp2_rep_eq (s2 := s2) i1
    rw [hst] at hstep
    cases hstep with
    | desig e r x hm =>
      simp only [jp2, jp1, jp, List.cons_append, List.nil_append, if_true, List.mem_cons, Prod.mk.injEq, List.not_mem_nil, or_false] at hm
      have key : ∀ {b : List Byte} {n u1 u2 : Nat} {g : Regs}, u1 ≤ 6 → jp2Regs u1 u2 = g → b ≠ [] → n = b.length →
          (iso2022_jp2_item (jp2St s1 s2)).run b = .ok (some (.shift n (jp2St u1 u2))) →
          b ≠ [] ∧ ∃ st', jp2_rep st' = g ∧ (([] : List Nat) = [] ∧ ([] : List Nat) = [] ∧
            (iso2022_jp2_item (jp2St s1 s2)).run b = .ok (some (.shift b.length st')) ∨
            ∃ wc, [] = [wc] ∧ (iso2022_jp2_item (jp2St s1 s2)).run b = .ok (some (.char wc b.length st'))) := by
        intro b n u1 u2 g hu hg hb hn hr
        subst hn
        exact ⟨hb, _, by rw [jp2_rep_eq hu, hg], .inl ⟨rfl, rfl, hr⟩⟩
      rcases hm with ⟨rfl, rfl, rfl⟩ | ⟨rfl, rfl, rfl⟩ | ⟨rfl, rfl, rfl⟩ | ⟨rfl, rfl, rfl⟩ | ⟨rfl, rfl, rfl⟩ | ⟨rfl, rfl, rfl⟩ |
        ⟨rfl, rfl, rfl⟩ | ⟨rfl, rfl, rfl⟩ | ⟨rfl, rfl, rfl⟩ | ⟨rfl, rfl, rfl⟩
      · exact key (u1 := 0) (u2 := s2) (by omega) rfl (by simp) rfl (by unfold iso2022_jp2_item; rw [jp2_1 i1, jp2_2 i1]; rfl)
      · exact key (u1 := 1) (u2 := s2) (by omega) rfl (by simp) rfl (by unfold iso2022_jp2_item; rw [jp2_1 i1, jp2_2 i1]; rfl)
      · exact key (u1 := 3) (u2 := s2) (by omega) rfl (by simp) rfl (by unfold iso2022_jp2_item; rw [jp2_1 i1, jp2_2 i1]; rfl)
      · exact key (u1 := 3) (u2 := s2) (by omega) rfl (by simp) rfl (by unfold iso2022_jp2_item; rw [jp2_1 i1, jp2_2 i1]; rfl)
      · exact key (u1 := 4) (u2 := s2) (by omega) rfl (by simp) rfl (by unfold iso2022_jp2_item; rw [jp2_1 i1, jp2_2 i1]; rfl)
      · exact key (u1 := 5) (u2 := s2) (by omega) rfl (by simp) rfl (by unfold iso2022_jp2_item; rw [jp2_1 i1, jp2_2 i1]; rfl)
      · exact key (u1 := 6) (u2 := s2) (by omega) rfl (by simp) rfl (by unfold iso2022_jp2_item; rw [jp2_1 i1, jp2_2 i1]; rfl)
      · exact key (u1 := s1) (u2 := 1) (by omega) rfl (by simp) rfl (by unfold iso2022_jp2_item; rw [jp2_1 i1, jp2_2 i1]; rfl)
      · exact key (u1 := s1) (u2 := 2) (by omega) rfl (by simp) rfl (by unfold iso2022_jp2_item; rw [jp2_1 i1, jp2_2 i1]; rfl)
      · exact key (u1 := 2) (u2 := s2) (by omega) rfl (by simp) rfl (by unfold iso2022_jp2_item; rw [jp2_1 i1, jp2_2 i1]; rfl)
    | so h hg => cases h
    | si h => cases h
    | char x b w hx hch hc =>
      have hx : some (jp2Set s1) = some x := hx
      cases hx
      have h01 : s1 = 0 ∨ s1 = 1 ∨ s1 = 2 ∨ s1 = 3 ∨ s1 = 4 ∨ s1 = 5 ∨ s1 = 6 := by omega
      have two : ∀ {x : Set} {d : CsDec}, Two x d.mbtowc → x.Chars b w →
          (s1 = 3 ∧ d = jisx0208_dec ∨ s1 = 4 ∧ d = jisx0212_dec ∨ s1 = 5 ∧ d = gb2312_dec ∨ s1 = 6 ∧ d = ksc5601_dec) →
          b ≠ [] ∧ ∃ st', jp2_rep st' = (jp2 0 true).after (jp2Regs s1 s2) b ∧ (w = [] ∧ ([] : List Nat) = [] ∧
            (iso2022_jp2_item (jp2St s1 s2)).run b = .ok (some (.shift b.length st')) ∨
            ∃ wc, w = [wc] ∧ (iso2022_jp2_item (jp2St s1 s2)).run b = .ok (some (.char wc b.length st'))) := by
        intro x d h2 hch hd
        obtain ⟨p, q, wc, rfl, rfl, hm⟩ := (h2.chars _ _).1 hch
        obtain ⟨⟨hp1, hp2⟩, hq1, hq2⟩ := h2.low _ _ _ hm
        exact ⟨by simp, _, by rw [after_two, jp2_rep_eq i1], .inr ⟨_, rfl, jp2_two hd (by omega) hm⟩⟩
      have esc : ∀ y, b = [y] → y.toNat ≠ 0x1b := by
        rintro y rfl h
        exact hc y (List.mem_singleton.2 rfl) (by rw [byte_eq h]; decide)
      rcases h01 with rfl | rfl | rfl | rfl | rfl | rfl | rfl
      · obtain ⟨y, hy, rfl, rfl⟩ := hch
        refine ⟨by simp, _, ?_, .inr ⟨_, rfl, jp2_one (.inl ⟨rfl, rfl⟩) hy (esc y rfl)⟩⟩
        rw [after_line rfl]
        by_cases hn : y.toNat = 0x0a ∨ y.toNat = 0x0d
        · rw [if_pos hn, if_pos hn, jp2_rep_eq (by omega)]; rfl
        · rw [if_neg hn, if_neg hn, jp2_rep_eq (by omega)]
      · obtain ⟨y, hy, rfl, rfl⟩ := hch
        refine ⟨by simp, _, ?_, .inr ⟨_, rfl, jp2_one (.inr ⟨rfl, roman_run hy⟩) hy (esc y rfl)⟩⟩
        rw [after_line rfl]
        by_cases hn : y.toNat = 0x0a ∨ y.toNat = 0x0d
        · rw [if_pos ((roman_line hy (roman_run hy)).2 hn), if_pos hn, jp2_rep_eq (by omega)]; rfl
        · rw [if_neg (fun h => hn ((roman_line hy (roman_run hy)).1 h)), if_neg hn, jp2_rep_eq (by omega)]
      · obtain ⟨y, hy1, hy2, rfl, rfl⟩ := hch
        refine ⟨by simp, _, ?_, .inr ⟨_, rfl, jp2_kana (a := u8 (y.toNat + 0x80)) (hi_low (by omega)) (esc y rfl) (kana_run hy1 hy2)⟩⟩
        rw [after_line rfl, if_neg (by omega), jp2_rep_eq (by omega)]
      · exact two jisx0208_two hch (.inl ⟨rfl, rfl⟩)
      · exact two jisx0212_two hch (.inr (.inl ⟨rfl, rfl⟩))
      · exact two gb2312_two hch (.inr (.inr (.inl ⟨rfl, rfl⟩)))
      · exact two ksc5601_two hch (.inr (.inr (.inr ⟨rfl, rfl⟩)))
    | ss2 x b w h hch =>
      have h : jp2G2 s2 = some x := h
      have h2 : s2 = 0 ∨ s2 = 1 ∨ s2 = 2 := by omega
      rcases h2 with rfl | rfl | rfl
      · cases h
      · cases h
        obtain ⟨y, _, hy, rfl, rfl⟩ := hch
        have hm : iso8859_1_m.run [u8 (y.toNat + 0x80)] = .ok (some (.char (u8 (y.toNat + 0x80)).toNat 1)) := rfl
        rw [hi_low hy] at hm
        exact ⟨by simp, _, hst, .inr ⟨_, rfl, jp2_g2 i1 (.inl ⟨rfl, rfl⟩) (hi_low hy) hm⟩⟩
      · cases h
        obtain ⟨y, wc, _, hy, rfl, ht, rfl⟩ := hch
        exact ⟨by simp, _, hst, .inr ⟨_, rfl, jp2_g2 i1 (.inr ⟨rfl, rfl⟩) (hi_low hy) (iso8859_7_run.2 (by rw [hi_low hy]; exact ht))⟩⟩
    | ss3 x b w h _ => cases h

end Reiconv.Iso

namespace Reiconv.Iso

/-! ## The variants of ISO-2022-JP-2 -/

/-- The set with the bytes from `lo` on. -/
def Set.relo (lo : Nat) : Set → Set
  | .latin1 _ => .latin1 lo
  | .greek _ => .greek lo
  | x => x

def Regs.relo (lo : Nat) (g : Regs) : Regs :=
  ⟨g.g0.relo lo, g.g1.map (Set.relo lo), g.g2.map (Set.relo lo), g.g3.map (Set.relo lo), g.so⟩

/-- A character of the C1 control set. -/
def C1 (c : Nat) : Prop := 0x80 ≤ c ∧ c < 0xa0

theorem greek_c1 : ∀ p ∈ iso8859_7_from, 0x80 ≤ p.1 → p.1 < 0xa0 → 0x80 ≤ p.2 ∧ p.2 < 0xa0 := by decide +kernel

theorem Set.relo_chars {lo : Nat} {x : Set} {b : List Byte} {w : List Nat}
    (h : lo = 0 ∨ (lo ≤ 0x20 ∧ ∀ c ∈ w, ¬ C1 c)) (hx : x.Chars b w) : (x.relo lo).Chars b w := by
  cases x with
  | latin1 m =>
    obtain ⟨y, _, h1, rfl, rfl⟩ := hx
    refine ⟨y, ?_, h1, rfl, rfl⟩
    rcases h with h | ⟨h2, h3⟩
    · omega
    · have := h3 _ (List.mem_singleton.2 rfl)
      unfold C1 at this
      omega
  | greek m =>
    obtain ⟨y, wc, _, h1, rfl, h4, rfl⟩ := hx
    refine ⟨y, wc, ?_, h1, rfl, h4, rfl⟩
    rcases h with h | ⟨h2, h3⟩
    · omega
    · have := h3 _ (List.mem_singleton.2 rfl)
      unfold C1 at this
      have h5 := greek_c1 _ h4
      simp only at h5
      omega
  | _ => exact hx

theorem Regs.relo_set {lo : Nat} {g : Regs} {r : Reg} {x : Set} : (g.set r x).relo lo = (g.relo lo).set r (x.relo lo) := by
  cases r <;> rfl

theorem Regs.relo_current {lo : Nat} {g : Regs} {x : Set} (h : g.current = some x) : (g.relo lo).current = some (x.relo lo) := by
  unfold Regs.current at *
  show (if g.so then g.g1.map _ else some _) = _
  split at h
  · rw [if_pos (by assumption), h]; rfl
  · rw [if_neg (by assumption)]
    cases h
    rfl

theorem jp2_relo_step {lo lo' : Nat} {k k' : Bool} (hk : k = true → k' = true) {g g' : Regs} {b : List Byte} {w : List Nat}
    (h : lo' = 0 ∨ (lo' ≤ 0x20 ∧ ∀ c ∈ w, ¬ C1 c)) (hs : (jp2 lo k).Step g b w g') :
    (jp2 lo' k').Step (g.relo lo') b w (g'.relo lo') := by
  cases hs with
  | desig e r x hm =>
    rw [Regs.relo_set]
    refine .desig _ _ _ _ ?_
    simp only [jp2, jp1, jp, List.mem_append, List.mem_cons, Prod.mk.injEq, List.not_mem_nil, or_false] at hm ⊢
    rcases hm with hm | hm
    · refine .inl ?_
      rcases hm with ((hm | hm | hm | hm) | hm) | hm | hm | hm | hm
      all_goals
        obtain ⟨rfl, rfl, rfl⟩ := hm
        simp [Set.relo]
    · refine .inr ?_
      cases k with
      | false => cases hm
      | true =>
        rw [hk rfl]
        rw [if_pos rfl, List.mem_singleton, Prod.mk.injEq, Prod.mk.injEq] at hm
        obtain ⟨rfl, rfl, rfl⟩ := hm
        exact List.mem_singleton.2 rfl
  | so hs _ => cases hs
  | si hs => cases hs
  | char x b w h1 h2 h3 =>
    have e : ((jp2 lo k).after g b).relo lo' = (jp2 lo' k').after (g.relo lo') b := by
      rw [Profile.after, Profile.after]
      by_cases hb : b = [0x0a] ∨ b = [0x0d]
      · rw [if_pos ⟨rfl, hb⟩, if_pos ⟨rfl, hb⟩]; rfl
      · rw [if_neg (fun h => hb h.2), if_neg (fun h => hb h.2)]
    rw [e]
    exact .char _ _ _ _ (Regs.relo_current h1) (Set.relo_chars h h2) h3
  | ss2 x b w h1 h2 =>
    exact .ss2 _ _ _ _ (by show Option.map _ _ = _; rw [h1]; rfl) (Set.relo_chars h h2)
  | ss3 x b w h1 h2 =>
    exact .ss3 _ _ _ _ (by show Option.map _ _ = _; rw [h1]; rfl) (Set.relo_chars h h2)

theorem jp2_relo {lo lo' : Nat} {k k' : Bool} (hk : k = true → k' = true) {g : Regs} {s : List Byte} {w : List Nat}
    (hs : Reads (jp2 lo k).Step g s w) : (lo' = 0 ∨ (lo' ≤ 0x20 ∧ ∀ c ∈ w, ¬ C1 c)) → Reads (jp2 lo' k').Step (g.relo lo') s w := by
  induction hs with
  | nil g => intro _; exact .nil _
  | @step g b w g' s ws h1 _ ih =>
    intro h
    refine .step (jp2_relo_step hk ?_ h1) (ih ?_)
    · exact h.imp id fun h => ⟨h.1, fun c hc => h.2 c (List.mem_append_left _ hc)⟩
    · exact h.imp id fun h => ⟨h.1, fun c hc => h.2 c (List.mem_append_right _ hc)⟩

theorem Reads.inv {R : Type} {Step : R → List Byte → List Nat → R → Prop} {g : R} {s : List Byte} {w : List Nat}
    (h : Reads Step g s w) : (s = [] ∧ w = []) ∨ ∃ b w1 g' s' w2, Step g b w1 g' ∧ Reads Step g' s' w2 ∧ b ++ s' = s ∧ w1 ++ w2 = w := by
  cases h with
  | nil => exact .inl ⟨rfl, rfl⟩
  | step h1 h2 => exact .inr ⟨_, _, _, _, _, h1, h2, rfl, rfl⟩

theorem Set.chars_ne {x : Set} {w : List Nat} : ¬ x.Chars [] w := by
  have two : ∀ {x : Set} {m : M MbRet}, Two x m → ¬ x.Chars [] w := by
    intro x m h hc
    obtain ⟨_, _, _, h, _⟩ := (h.chars _ _).1 hc
    cases h
  cases x with
  | ascii => rintro ⟨_, _, h, _⟩; cases h
  | roman => rintro ⟨_, _, h, _⟩; cases h
  | kana => rintro ⟨_, _, _, h, _⟩; cases h
  | jisx0208 => exact two jisx0208_two
  | jisx0212 => exact two jisx0212_two
  | gb2312 => exact two gb2312_two
  | ksc5601 => exact two ksc5601_two
  | isoir165 => exact two isoir165_two
  | cns p => rintro ⟨_, _, _, _, h, _⟩; cases h
  | jisx0213 p => rintro ⟨_, _, _, _, h, _⟩; cases h
  | latin1 lo => rintro ⟨_, _, _, h, _⟩; cases h
  | greek lo => rintro ⟨_, _, _, _, h, _⟩; cases h

/-- What can follow an escape. -/
theorem jp2_esc_step {lo : Nat} {k : Bool} {g g' : Regs} {b s s' : List Byte} {w : List Nat} (h : (jp2 lo k).Step g b w g')
    (hb : b ++ s = 0x1b :: s') : (∃ r x, (b, r, x) ∈ (jp2 lo k).desig ∧ w = [] ∧ g' = g.set r x) ∨
      ∃ x c, (b = 0x1b :: 0x4e :: c ∧ g.g2 = some x ∨ b = 0x1b :: 0x4f :: c ∧ g.g3 = some x) ∧ x.Chars c w ∧ g' = g := by
  cases h with
  | desig e r x hm => exact .inl ⟨r, x, hm, rfl, rfl⟩
  | so h => cases h
  | si h => cases h
  | char x b w h1 h2 h3 =>
    cases b with
    | nil => exact absurd h2 Set.chars_ne
    | cons y b =>
      cases hb
      exact absurd (by simp [Profile.control, jp2]) (h3 0x1b (by simp))
  | ss2 x b w h1 h2 => exact .inr ⟨x, b, .inl ⟨rfl, h1⟩, h2, rfl⟩
  | ss3 x b w h1 h2 => exact .inr ⟨x, b, .inr ⟨rfl, h1⟩, h2, rfl⟩

/-- No byte below 0x20 follows `ESC N`. -/
theorem jp2_no_low {k : Bool} {f : Byte} {s : List Byte} {w : List Nat} (hf : f = 0x41 ∨ f = 0x46) {c : Byte} (hc : c.toNat < 0x20) :
    ¬ Reads (jp2 0x20 k).Step Regs.init (0x1b :: 0x2e :: f :: 0x1b :: 0x4e :: c :: s) w := by
  intro h
  rcases h.inv with ⟨h, _⟩ | ⟨b, w1, g1, s1, w2, h1, h2, hb, _⟩
  · cases h
  have key : ∃ x, g1.g2 = some x ∧ (x = .latin1 0x20 ∨ x = .greek 0x20) ∧ s1 = 0x1b :: 0x4e :: c :: s := by
    rcases jp2_esc_step h1 hb with ⟨r, x, hm, _, rfl⟩ | ⟨x, d, hx, _, _⟩
    · simp only [jp2, jp1, jp, List.mem_append, List.mem_cons, Prod.mk.injEq, List.not_mem_nil, or_false] at hm
      rcases hm with (((hm | hm | hm | hm) | hm) | hm | hm | hm | hm) | hm
      all_goals try (obtain ⟨rfl, rfl, rfl⟩ := hm; simp at hb)
      · exact ⟨_, rfl, .inl rfl, hb.2⟩
      · exact ⟨_, rfl, .inr rfl, hb.2⟩
      · cases k with
        | false => cases hm
        | true =>
          rw [if_pos rfl, List.mem_singleton, Prod.mk.injEq, Prod.mk.injEq] at hm
          obtain ⟨rfl, rfl, rfl⟩ := hm
          simp at hb
    · rcases hx with ⟨rfl, _⟩ | ⟨rfl, _⟩ <;> simp at hb
  obtain ⟨x, hx, hx2, rfl⟩ := key
  rcases h2.inv with ⟨h, _⟩ | ⟨b, w1, g2, s1, w2, h1, h2, hb, _⟩
  · cases h
  rcases jp2_esc_step h1 hb with ⟨r, y, hm, _, rfl⟩ | ⟨y, d, hy, hd, _⟩
  · simp only [jp2, jp1, jp, List.mem_append, List.mem_cons, Prod.mk.injEq, List.not_mem_nil, or_false] at hm
    rcases hm with (((hm | hm | hm | hm) | hm) | hm | hm | hm | hm) | hm
    all_goals try (obtain ⟨rfl, rfl, rfl⟩ := hm; simp at hb)
    cases k with
    | false => cases hm
    | true =>
      rw [if_pos rfl, List.mem_singleton, Prod.mk.injEq, Prod.mk.injEq] at hm
      obtain ⟨rfl, rfl, rfl⟩ := hm
      simp at hb
  · rcases hy with ⟨rfl, hy⟩ | ⟨rfl, _⟩
    · rw [hx] at hy
      cases hy
      rcases hx2 with rfl | rfl
      · obtain ⟨z, h5, h6, rfl, _⟩ := hd
        simp only [List.cons_append, List.nil_append, List.cons.injEq, true_and] at hb
        have h3 : z = c := hb.1
        rw [h3] at h5
        exact absurd (Nat.lt_of_lt_of_le hc h5) (Nat.lt_irrefl _)
      · obtain ⟨z, wc, h5, h6, rfl, _⟩ := hd
        simp only [List.cons_append, List.nil_append, List.cons.injEq, true_and] at hb
        have h3 : z = c := hb.1
        rw [h3] at h5
        exact absurd (Nat.lt_of_lt_of_le hc h5) (Nat.lt_irrefl _)
    · simp at hb

end Reiconv.Iso
