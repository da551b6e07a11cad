import Verif.Props.Rev
import Verif.Props.Cp50221
import Verif.Props.CompRead
import Verif.Props.EscRead
import Verif.Props.MarkRead
import Verif.KeepTables

/-!
# C69: saving a text in its own encoding keeps its characters

A text is read in an encoding, and its characters are written in the same encoding. The bytes may change; the characters
should not.
-/

namespace Reiconv

/-- What is written in `A` for the Unicode characters of a text of `A` is read as these characters. -/
def Entry.Keeps (A : Entry) : Prop :=
  ∀ (inp : List Byte) (cs : List Nat) (out : List Byte), A.Text inp cs → (∀ c ∈ cs, Scalar c) → A.Encodes cs out →
    A.Text out cs

namespace Keep

set_option maxRecDepth 20000

theorem encodes_det {A : Entry} {cs : List Nat} {a b : List Byte} (h1 : A.Encodes cs a) (h2 : A.Encodes cs b) : a = b := by
  obtain ⟨bs, os, h, rfl⟩ := h1
  obtain ⟨bs', os', h', rfl⟩ := h2
  rw [h] at h'
  cases h'
  rfl

theorem of_readsBack {A : Entry} (h : A.ReadsBack) : A.Keeps := fun _ cs out _ hs he => h cs out hs he

theorem of_writesBack {A : Entry} (h : A.WritesBack) : A.Keeps := fun inp cs _ ht _ he =>
  encodes_det (h inp cs ht) he ▸ ht

/-! ## Byte order marks -/

theorem markReads_has {S : BomForm} {o : Order} {s : List Byte} {w : List Nat} (h : MarkReads S o s w) : ∀ c ∈ w, S.has c := by
  induction h with
  | nil => exact fun _ h => nomatch h
  | char h1 _ ih => exact List.forall_mem_cons.2 ⟨h1, ih⟩
  | mark _ _ ih => exact ih

theorem bom_no_mark : ∀ S ∈ bomForms, ∀ s w, S.entry.Text s w → 0xFEFF ∉ w := by
  intro S hS s w h hm
  have := markReads_has ((C56_reads S hS s w).1 h) _ hm
  unfold bomForms at hS
  simp only [List.mem_cons, List.not_mem_nil, or_false] at hS
  rcases hS with rfl | rfl | rfl | rfl
  · exact this.2.1 rfl
  · exact this.2 rfl
  · exact this.2.1 rfl
  · exact this.2 rfl

theorem utf16_keeps : utf16_entry.Keeps := fun inp cs out ht _ he =>
  C22_utf16_partial.2.1 cs out he (bom_no_mark _ (by unfold bomForms; exact List.mem_of_getElem? (i := 0) rfl) inp cs ht)
theorem utf32_keeps : utf32_entry.Keeps := fun inp cs out ht _ he =>
  C23_marked_partial.2.2.2.1 utf32_entry (by simp) cs out he
    (bom_no_mark _ (by unfold bomForms; exact List.mem_of_getElem? (i := 1) rfl) inp cs ht)
theorem ucs2_keeps : ucs2_entry.Keeps := fun inp cs out ht _ he =>
  C23_marked_partial.2.2.2.1 ucs2_entry (by simp) cs out he
    (bom_no_mark _ (by unfold bomForms; exact List.mem_of_getElem? (i := 2) rfl) inp cs ht)
theorem ucs4_keeps : ucs4_entry.Keeps := fun inp cs out ht _ he =>
  C23_marked_partial.2.2.2.1 ucs4_entry (by simp) cs out he
    (bom_no_mark _ (by unfold bomForms; exact List.mem_of_getElem? (i := 3) rfl) inp cs ht)

/-! ## CP932, CP943, CP950 -/

theorem mb_keeps {r : MbRow} (h : r.OK) (hi : ∀ p ∈ r.irr, p ∉ r.table → ∀ b, (b, p.2) ∉ r.table) : r.entry.Keeps := by
  intro inp cs out ht _ he
  rw [h.text] at ht ⊢
  rw [h.encodes] at he
  refine he.imp fun b w hw hb => ?_
  rcases hb with hb | hb
  · exact hb.1
  · obtain ⟨b', hb'⟩ := ht.all w hw
    exact absurd hb' (hi _ hb.2 hb.1 b')

theorem irr_ex {w : Nat → W} {ds : List (Tab × Tab)} {T : List Tab} (h : ∀ p ∈ ds, chkRows w p.1 p.2 = true)
    (ht : ds.map (·.1) = T) {ex : List (Nat × Nat)} {p : List Byte × Nat} (hp : p ∈ tableOf (ds.map (·.2)) ++ irrOf ex)
    (hn : p ∉ tableOf T) : p.2 ∈ ex.map (·.2) := by
  rcases List.mem_append.1 hp with hp | hp
  · exact absurd (ht ▸ dups_mem h p hp) hn
  · obtain ⟨q, hq, rfl⟩ := List.mem_map.1 hp
    exact List.mem_map.2 ⟨q, hq, rfl⟩

theorem cp932_irr_ok : ∀ p ∈ cp932_irr, p ∉ tableOf (pieceTabs cp932_pieces) →
    ∀ b, (b, p.2) ∉ tableOf (pieceTabs cp932_pieces) := fun _ hp hn _ hb =>
  (cp932_sound hb).1 (irr_ex (T := pieceTabs cp932_pieces) cp932_allRows rfl hp hn)

theorem cp950_irr_ok : ∀ p ∈ cp950_irr, p ∉ tableOf (pieceTabs cp950_pieces) →
    ∀ b, (b, p.2) ∉ tableOf (pieceTabs cp950_pieces) := fun _ hp hn _ hb =>
  cp950_sound hb (List.mem_singleton.1 (irr_ex (T := pieceTabs cp950_pieces) cp950_allRows rfl hp hn))

theorem cp932_keeps : cp932_entry.Keeps := mb_keeps (mbRows_ok cp932_row (List.mem_of_getElem? (i := 5) rfl)) cp932_irr_ok
theorem cp943_keeps : cp943_entry.Keeps := mb_keeps (mbRows_ok cp943_row (List.mem_of_getElem? (i := 6) rfl)) cp932_irr_ok
theorem cp950_keeps : cp950_entry.Keeps := mb_keeps (mbRows_ok cp950_row (List.mem_of_getElem? (i := 13) rfl)) cp950_irr_ok

/-! ## ISO-2022 -/

section
open Iso (Regs Profile Reads Set Listed Graphic)

/-- A set without control characters. -/
def Free (x : Set) : Prop := ∀ b w, x.Chars b w → ∀ c ∈ w, 0x20 ≤ c

theorem free_kana : Free .kana := by
  rintro b w ⟨x, h1, h2, rfl, rfl⟩ c hc
  rw [List.mem_singleton.1 hc]; omega

theorem free_listed {r : MbRow} {b : List Byte} {w : List Nat} (h : ∀ wc, (b, wc) ∈ r.table → 0x20 ≤ wc) (hl : Listed r b w) :
    ∀ c ∈ w, 0x20 ≤ c := by
  obtain ⟨wc, hm, rfl⟩ := hl
  intro c hc
  rw [List.mem_singleton.1 hc]; exact h wc hm

theorem free_jisx0208 : Free .jisx0208 := fun _ _ h => free_listed (fun _ hm => (fine_sound jisx0208_fine hm).1) h
theorem free_jisx0212 : Free .jisx0212 := fun _ _ h => free_listed (fun _ hm => (fine_sound jisx0212_fine hm).1) h

theorem free_two {x : Set} {r : MbRow} {ts : List Tab} (hr : r.table = tableOf ts) (ht : tabsAll high ts = true)
    (hx : ∀ b w, x.Chars b w ↔ Listed r b w) (hn : ∀ b w, x.Chars b w → b.length = 2) : Free x := fun b w h =>
  free_listed (fun _ hm => high_sound ht (hr ▸ hm) (by rw [hn b w h]; exact Nat.le_refl _)) ((hx b w).1 h)

theorem two_length {b : List Byte} {w : List Nat} {f : Byte → Byte → Nat → Prop}
    (h : ∃ x y wc, b = [x, y] ∧ w = [wc] ∧ f x y wc) : b.length = 2 := by
  obtain ⟨_, _, _, rfl, _⟩ := h
  rfl

theorem free_gb2312 : Free .gb2312 := free_two (ts := pieceTabs gb2312_pieces) rfl gb2312_fine (fun _ _ => Iff.rfl)
  fun b w h => two_length ((Iso.gb2312_two.chars b w).1 h)
theorem free_ksc5601 : Free .ksc5601 := free_two (ts := pieceTabs ksc5601_pieces) rfl ksc5601_fine (fun _ _ => Iff.rfl)
  fun b w h => two_length ((Iso.ksc5601_two.chars b w).1 h)
theorem free_isoir165 : Free .isoir165 := free_two (ts := pieceTabs isoir165_pieces) rfl isoir165_fine (fun _ _ => Iff.rfl)
  fun b w h => two_length ((Iso.isoir165_two.chars b w).1 h)

theorem free_cns (p : Nat) : Free (.cns p) := by
  rintro b w ⟨x, y, _, _, rfl, h⟩
  exact free_listed (fun _ hm => high_sound euc_tw_high hm (by simp)) h

theorem eucJx_pairs_high : ∀ q ∈ eucJxPairs, 0x20 ≤ q.2.1 ∧ 0x20 ≤ q.2.2 := by decide +kernel

theorem free_jisx0213 (p : Nat) : Free (.jisx0213 p) := by
  rintro b w ⟨x, y, _, _, rfl, h⟩ c hc
  rcases h with ⟨wc, hm, rfl⟩ | ⟨c1, c2, hm, rfl⟩
  · rw [List.mem_singleton.1 hc]
    exact high_sound euc_jx_high hm (by split <;> simp)
  · have := eucJx_pairs_high _ hm
    simp only [List.mem_cons, List.not_mem_nil, or_false] at hc
    rcases hc with rfl | rfl
    · exact this.1
    · exact this.2

theorem free_latin1 (lo : Nat) : Free (.latin1 lo) := by
  rintro b w ⟨x, _, _, rfl, rfl⟩ c hc
  rw [List.mem_singleton.1 hc]; omega

theorem greek_high : ∀ q ∈ iso8859_7_from, 0x80 ≤ q.1 → 0x20 ≤ q.2 := by decide +kernel

theorem free_greek (lo : Nat) : Free (.greek lo) := by
  rintro b w ⟨x, wc, _, _, rfl, hm, rfl⟩ c hc
  rw [List.mem_singleton.1 hc]
  exact greek_high _ hm (Nat.le_add_left _ _)

/-- ASCII, JIS X 0201 Roman, or a set without control characters. -/
def Base (x : Set) : Prop := x = .ascii ∨ x = .roman ∨ Free x

/-- What the designations put into the registers. -/
structure RegsOK (g : Regs) : Prop where
  g0 : Base g.g0
  g1 : ∀ x, g.g1 = some x → Free x
  g2 : ∀ x, g.g2 = some x → Free x
  g3 : ∀ x, g.g3 = some x → Free x

theorem control_low {P : Profile} : ∀ k ∈ P.control, k.toNat < 0x20 := by
  unfold Profile.control
  split <;> decide

theorem base_chars {P : Profile} {x : Set} (hx : Base x) {b : List Byte} {w : List Nat} (h : x.Chars b w)
    (hb : ∀ c ∈ b, c ∉ P.control) : ∀ c ∈ w, ∀ k ∈ P.control, c ≠ k.toNat := by
  intro c hc k hk he
  have hl := control_low k hk
  rcases hx with rfl | rfl | hx
  · obtain ⟨y, _, rfl, rfl⟩ := h
    rw [List.mem_singleton.1 hc] at he
    exact hb y (by simp) (UInt8.toNat_inj.1 he ▸ hk)
  · obtain ⟨y, _, rfl, rfl⟩ := h
    have := List.mem_singleton.1 hc
    split at this
    · omega
    split at this
    · omega
    · rw [this] at he
      exact hb y (by simp) (UInt8.toNat_inj.1 he ▸ hk)
  · have := hx b w h c hc
    omega

/-- A designation that puts such a set into a register. -/
def DesigOK (d : List Byte × Iso.Reg × Set) : Prop := Free d.2.2 ∨ (∃ e x, d = (e, .G0, x) ∧ Base x)

theorem d0 {e : List Byte} {x : Set} (h : Base x) : DesigOK (e, .G0, x) := .inr ⟨e, x, rfl, h⟩
theorem df {e : List Byte} {r : Iso.Reg} {x : Set} (h : Free x) : DesigOK (e, r, x) := .inl h

theorem mem_app {l l' : List (List Byte × Iso.Reg × Set)} (h : ∀ d ∈ l, DesigOK d) (h' : ∀ d ∈ l', DesigOK d) :
    ∀ d ∈ l ++ l', DesigOK d := fun d hd => (List.mem_append.1 hd).elim (h d) (h' d)

/-- A text has no characters whose codes are those of control bytes. -/
theorem iso_no_control {P : Profile} (hd : ∀ d ∈ P.desig, DesigOK d) {g : Regs}
    {s : List Byte} {w : List Nat} (h : Reads P.Step g s w) : RegsOK g → ∀ c ∈ w, ∀ k ∈ P.control, c ≠ k.toNat := by
  induction h with
  | nil => exact fun _ _ h => nomatch h
  | @step g b w g' s ws h1 _ ih =>
    intro hg
    have key : RegsOK g' ∧ ∀ c ∈ w, ∀ k ∈ P.control, c ≠ k.toNat := by
      cases h1 with
      | desig e r x hm =>
        refine ⟨?_, fun _ h => nomatch h⟩
        rcases hd _ hm with hf | ⟨e', x', he, hx⟩
        · have hf : Free x := hf
          cases r with
          | G0 => exact ⟨.inr (.inr hf), hg.g1, hg.g2, hg.g3⟩
          | G1 => exact ⟨hg.g0, fun _ h => Option.some.inj h ▸ hf, hg.g2, hg.g3⟩
          | G2 => exact ⟨hg.g0, hg.g1, fun _ h => Option.some.inj h ▸ hf, hg.g3⟩
          | G3 => exact ⟨hg.g0, hg.g1, hg.g2, fun _ h => Option.some.inj h ▸ hf⟩
        · cases he
          exact ⟨hx, hg.g1, hg.g2, hg.g3⟩
      | so => exact ⟨⟨hg.g0, hg.g1, hg.g2, hg.g3⟩, fun _ h => nomatch h⟩
      | si => exact ⟨⟨hg.g0, hg.g1, hg.g2, hg.g3⟩, fun _ h => nomatch h⟩
      | char x b w hx hc hb =>
        refine ⟨?_, base_chars ?_ hc hb⟩
        · unfold Profile.after
          split
          · exact ⟨hg.g0, nofun, nofun, nofun⟩
          · exact hg
        · unfold Regs.current at hx
          split at hx
          · exact .inr (.inr (hg.g1 _ hx))
          · exact Option.some.inj hx ▸ hg.g0
      | ss2 x b w hx hc =>
        refine ⟨hg, fun c h k hk he => ?_⟩
        have := hg.g2 x hx b w hc c h
        have := control_low k hk
        omega
      | ss3 x b w hx hc =>
        refine ⟨hg, fun c h k hk he => ?_⟩
        have := hg.g3 x hx b w hc c h
        have := control_low k hk
        omega
    intro c hc
    rcases List.mem_append.1 hc with hc | hc
    · exact key.2 c hc
    · exact ih key.1 c hc

theorem regs_init : RegsOK Regs.init := ⟨.inl rfl, nofun, nofun, nofun⟩

theorem iso_keeps {r : ShiftRow} (hr : r ∈ shiftRows) {P : Profile}
    (hread : ∀ s w, r.entry.Text s w → Reads P.Step Regs.init s w)
    (hd : ∀ d ∈ P.desig, DesigOK d)
    (hc : ∀ c ∈ r.ctl, ∃ k ∈ P.control, c = k.toNat) : r.entry.Keeps := by
  intro inp cs out ht _ he
  refine C42_shift r hr cs out (fun c h h' => ?_) he
  obtain ⟨k, hk, hk'⟩ := hc c h'
  exact iso_no_control hd (hread inp cs ht) regs_init c h k hk hk'

theorem shifts_control {P : Profile} (h : P.shifts = true) : ∀ c ∈ [0x1b, 0x0e, 0x0f], ∃ k ∈ P.control, c = k.toNat := by
  unfold Profile.control
  rw [if_pos h]
  decide

theorem esc_control {P : Profile} (h : P.shifts = false) : ∀ c ∈ [0x1b], ∃ k ∈ P.control, c = k.toNat := by
  unfold Profile.control
  rw [h]
  decide

theorem kr_keeps : iso2022_kr_entry.Keeps :=
  iso_keeps (r := ⟨"ISO-2022-KR", iso2022_kr_entry, [0x1b, 0x0e, 0x0f]⟩) (P := Iso.kr) (List.mem_of_getElem? (i := 1) rfl)
    (fun s w => (C47_reads ⟨"ISO-2022-KR", iso2022_kr_entry, Iso.kr⟩ (List.mem_of_getElem? (i := 0) rfl) s w).1)
    (all_cons (df free_ksc5601) all_nil) (shifts_control rfl)

theorem cn_keeps : iso2022_cn_entry.Keeps :=
  iso_keeps (r := ⟨"ISO-2022-CN", iso2022_cn_entry, [0x1b, 0x0e, 0x0f]⟩) (P := Iso.cn) (List.mem_of_getElem? (i := 2) rfl)
    (fun s w => (C47_reads ⟨"ISO-2022-CN", iso2022_cn_entry, Iso.cn⟩ (List.mem_of_getElem? (i := 1) rfl) s w).1)
    (all_cons (df free_gb2312) <| all_cons (df (free_cns _)) <| all_cons (df (free_cns _)) all_nil) (shifts_control rfl)

theorem cnext_keeps : iso2022_cn_ext_entry.Keeps :=
  iso_keeps (r := ⟨"ISO-2022-CN-EXT", iso2022_cn_ext_entry, [0x1b, 0x0e, 0x0f]⟩) (P := Iso.cnExt) (List.mem_of_getElem? (i := 3) rfl)
    (fun s w => (C47_reads ⟨"ISO-2022-CN-EXT", iso2022_cn_ext_entry, Iso.cnExt⟩ (List.mem_of_getElem? (i := 2) rfl) s w).1)
    (all_cons (df free_gb2312) <| all_cons (df (free_cns _)) <| all_cons (df free_isoir165) <| all_cons (df (free_cns _)) <|
      all_cons (df (free_cns _)) <| all_cons (df (free_cns _)) <| all_cons (df (free_cns _)) <| all_cons (df (free_cns _)) <|
      all_cons (df (free_cns _)) all_nil) (shifts_control rfl)

theorem jp_desig : ∀ d ∈ Iso.jp.desig, DesigOK d :=
  all_cons (d0 (.inl rfl)) <| all_cons (d0 (.inr (.inl rfl))) <| all_cons (df free_jisx0208) <| all_cons (df free_jisx0208) all_nil

theorem jp1_desig : ∀ d ∈ Iso.jp1.desig, DesigOK d := mem_app jp_desig (all_cons (df free_jisx0212) all_nil)

theorem jp2_desig : ∀ d ∈ (Iso.jp2 0 true).desig, DesigOK d :=
  mem_app (mem_app jp1_desig (all_cons (df free_gb2312) <| all_cons (df free_ksc5601) <| all_cons (df (free_latin1 _)) <|
    all_cons (df (free_greek _)) all_nil)) (all_cons (df free_kana) all_nil)

theorem jp3_desig : ∀ d ∈ Iso.jp3.desig, DesigOK d :=
  mem_app jp_desig (all_cons (df free_kana) <| all_cons (df (free_jisx0213 _)) <| all_cons (df (free_jisx0213 _)) <|
    all_cons (df (free_jisx0213 _)) all_nil)

theorem jp_keeps : iso2022_jp_entry.Keeps :=
  iso_keeps (r := ⟨"ISO-2022-JP", iso2022_jp_entry, [0x1b]⟩) (P := Iso.jp) (List.mem_of_getElem? (i := 4) rfl)
    (fun s w => (C47_reads ⟨"ISO-2022-JP", iso2022_jp_entry, Iso.jp⟩ (List.mem_of_getElem? (i := 3) rfl) s w).1) jp_desig (esc_control rfl)
theorem jp1_keeps : iso2022_jp1_entry.Keeps :=
  iso_keeps (r := ⟨"ISO-2022-JP-1", iso2022_jp1_entry, [0x1b]⟩) (P := Iso.jp1) (List.mem_of_getElem? (i := 5) rfl)
    (fun s w => (C47_reads ⟨"ISO-2022-JP-1", iso2022_jp1_entry, Iso.jp1⟩ (List.mem_of_getElem? (i := 4) rfl) s w).1) jp1_desig (esc_control rfl)
theorem jp2_keeps : iso2022_jp2_entry.Keeps :=
  iso_keeps (r := ⟨"ISO-2022-JP-2", iso2022_jp2_entry, [0x1b]⟩) (P := Iso.jp2 0 true) (List.mem_of_getElem? (i := 6) rfl)
    (fun s w => (C47_jp2_reads s w).1) jp2_desig (esc_control rfl)
theorem jp3_keeps : iso2022_jp3_entry.Keeps :=
  iso_keeps (r := ⟨"ISO-2022-JP-3", iso2022_jp3_entry, [0x1b]⟩) (P := Iso.jp3) (List.mem_of_getElem? (i := 7) rfl)
    (fun s w => (C47_reads ⟨"ISO-2022-JP-3", iso2022_jp3_entry, Iso.jp3⟩ (List.mem_of_getElem? (i := 5) rfl) s w).1) jp3_desig (esc_control rfl)

end

/-! ## CP50221 -/

section
open Cp50221
open Iso (Reads Graphic)

/-- Not a control character, and not among those that are written as others. -/
def clean (c : Nat) : Bool :=
  Nat.ble 0x20 c && !(c == 0x301d) && !(Nat.ble 0xe178 c && Nat.ble c 0xe2df) && !(Nat.ble 0xe2e2 c && Nat.ble c 0xe2ef)

theorem clean_iff {c : Nat} : clean c = true ↔ 0x20 ≤ c ∧ c ∉ jpmsLost := by
  unfold clean
  rw [mem_jpmsLost]
  simp only [Bool.and_eq_true, Bool.not_eq_true', Nat.ble_eq, beq_eq_false_iff_ne, Bool.and_eq_false_iff]
  rw [← Bool.not_eq_true, ← Bool.not_eq_true, ← Bool.not_eq_true, ← Bool.not_eq_true]
  simp only [Nat.ble_eq]
  omega

theorem row13_clean : (List.range 94).all (fun i => match ofRun (jpms_0208.run [0x2d, u8 (i + 0x21)]) with
    | some c => clean c
    | none => true) = true := by decide +kernel

theorem row85_clean : (List.range 940).all (fun i => match ofRun (jpms_0208.run [u8 (i / 94 + 0x75), u8 (i % 94 + 0x21)]) with
    | some c => clean c
    | none => true) = true := by decide +kernel

theorem rows0212_clean : ∀ q ∈ rows0212, clean q.2 = true := by decide +kernel

theorem in0208_clean {x y : Byte} {wc : Nat} (hx : Graphic x) (hy : Graphic y) (h : In0208 implemented x y wc) :
    0x20 ≤ wc ∧ wc ∉ jpmsLost := by
  have hr := (ofRun_two jpms_0208_two x y wc).1 ((in0208_iff hx hy).1 h)
  have hy1 := hy.1
  have hy2 := hy.2
  have hx2 := hx.2
  rw [← clean_iff]
  by_cases h1 : x.toNat = 0x2d
  · have := List.all_eq_true.1 row13_clean (y.toNat - 0x21) (List.mem_range.2 (by omega))
    rw [show y.toNat - 0x21 + 0x21 = y.toNat by omega, u8_of_toNat, show (0x2d : Byte) = x from (byte_eq h1).symm, hr] at this
    exact this
  by_cases h2 : x.toNat < 0x75
  · unfold In0208 at h
    rw [if_neg h1, if_pos h2] at h
    obtain ⟨c, hm, hc⟩ := h
    cases hc
    exact clean_iff.2 (fine_sound jisx0208_fine hm)
  · have := List.all_eq_true.1 row85_clean ((x.toNat - 0x75) * 94 + (y.toNat - 0x21)) (List.mem_range.2 (by omega))
    rw [show ((x.toNat - 0x75) * 94 + (y.toNat - 0x21)) / 94 + 0x75 = x.toNat by omega,
      show ((x.toNat - 0x75) * 94 + (y.toNat - 0x21)) % 94 + 0x21 = y.toNat by omega, u8_of_toNat, u8_of_toNat, hr] at this
    exact this

theorem in0212_clean {x y : Byte} {wc : Nat} (h : In0212 x y wc) : 0x20 ≤ wc ∧ wc ∉ jpmsLost := by
  unfold In0212 at h
  split at h
  · obtain ⟨c, hm, hc⟩ := h
    cases hc
    exact fine_sound jisx0212_fine hm
  split at h
  · exact clean_iff.1 (rows0212_clean _ h)
  · rw [mem_jpmsLost]
    omega

theorem cset_clean {g : Cset} {b : List Byte} {w : List Nat} (h : g.Chars implemented b w)
    (hb : ∀ c ∈ b, c ≠ 0x1b ∧ c ≠ 0x0e ∧ c ≠ 0x0f) : ∀ c ∈ w, c ∉ [0x1b, 0x0e, 0x0f] ++ jpmsLost := by
  have byte : ∀ y : Byte, y ∈ b → y.toNat ≤ 0xff → y.toNat ∉ [0x1b, 0x0e, 0x0f] ++ jpmsLost := by
    intro y hy hlt hm
    have := hb y hy
    rw [List.mem_append, mem_jpmsLost] at hm
    simp only [List.mem_cons, List.not_mem_nil, or_false] at hm
    rcases hm with (h | h | h) | h
    · exact this.1 (byte_eq h)
    · exact this.2.1 (byte_eq h)
    · exact this.2.2 (byte_eq h)
    · omega
  have up : ∀ c, 0x20 ≤ c → c ∉ jpmsLost → c ∉ [0x1b, 0x0e, 0x0f] ++ jpmsLost := by
    intro c h1 h2 hm
    rcases List.mem_append.1 hm with hm | hm
    · simp only [List.mem_cons, List.not_mem_nil, or_false] at hm
      omega
    · exact h2 hm
  intro c hc
  cases g with
  | ascii =>
    obtain ⟨y, h1, rfl, rfl⟩ := h
    rw [List.mem_singleton.1 hc]
    exact byte y (by simp) (by omega)
  | roman =>
    obtain ⟨y, h1, rfl, rfl⟩ := h
    have := List.mem_singleton.1 hc
    split at this
    · exact up c (by omega) (by rw [mem_jpmsLost]; omega)
    split at this
    · exact up c (by omega) (by rw [mem_jpmsLost]; omega)
    · rw [this]
      exact byte y (by simp) (by omega)
  | kana =>
    obtain ⟨y, h1, h2, rfl, rfl⟩ := h
    have := List.mem_singleton.1 hc
    exact up c (by omega) (by rw [mem_jpmsLost]; omega)
  | jisx0208 =>
    obtain ⟨x, y, wc, hx, hy, rfl, rfl, hi⟩ := h
    rw [List.mem_singleton.1 hc]
    exact up _ (in0208_clean hx hy hi).1 (in0208_clean hx hy hi).2
  | jisx0212 =>
    obtain ⟨x, y, wc, hx, hy, rfl, rfl, hi⟩ := h
    rw [List.mem_singleton.1 hc]
    exact up _ (in0212_clean hi).1 (in0212_clean hi).2

theorem cp50221_clean {g : Cset} {s : List Byte} {w : List Nat} (h : Reads (Step implemented) g s w) :
    ∀ c ∈ w, c ∉ [0x1b, 0x0e, 0x0f] ++ jpmsLost := by
  induction h with
  | nil => exact fun _ h => nomatch h
  | @step g b w g' s ws h1 _ ih =>
    intro c hc
    rcases List.mem_append.1 hc with hc | hc
    · generalize hg : g' = g2 at h1
      cases h1 with
      | char g b w h2 hb => exact cset_clean h2 hb c hc
      | _ => cases hc
    · exact ih c hc

theorem cp50221_keeps : iso2022_jpms_entry.Keeps := fun inp cs out ht _ he =>
  C42_shift ⟨"CP50221", iso2022_jpms_entry, [0x1b, 0x0e, 0x0f] ++ jpmsLost⟩ (List.mem_of_getElem? (i := 8) rfl) cs out
    (cp50221_clean ((C47_cp50221_reads inp cs).1 ht)) he

end

/-! ## C99 -/

/-- The same letters and digits up to the next other byte or the end. -/
inductive Same : List Byte → List Byte → Prop
  | nil : Same [] []
  | alnum {b s t} : Same s t → Same (b :: s) (b :: t)
  | stop {a b s t} : ¬ Alnum a → ¬ Alnum b → Same (a :: s) (b :: t)

theorem Same.prefix {s t : List Byte} (h : Same s t) {e : List Byte} (he : ∀ d ∈ e, Alnum d) {x : List Byte} :
    e <+: t ++ x → ∃ x', e <+: s ++ x' := by
  induction h generalizing e with
  | nil => exact fun h => ⟨x, h⟩
  | @alnum b s t _ ih =>
    intro h
    cases e with
    | nil => exact ⟨[], List.nil_prefix⟩
    | cons d e =>
      obtain ⟨rfl, h2⟩ := List.cons_prefix_cons.1 h
      obtain ⟨x', h'⟩ := ih (fun d hd => he d (List.mem_cons_of_mem _ hd)) h2
      exact ⟨x', List.cons_prefix_cons.2 ⟨rfl, h'⟩⟩
  | stop _ hb =>
    intro h
    cases e with
    | nil => exact ⟨[], List.nil_prefix⟩
    | cons d e =>
      obtain ⟨rfl, _⟩ := List.cons_prefix_cons.1 h
      exact absurd (he d (by simp)) hb

theorem Same.never {s t : List Byte} (h : Same s t) {E : List Byte → Prop} (hE : ∀ e, E e → ∀ d ∈ e, Alnum d) (hn : Never E s) :
    Never E t := by
  intro x e he hp
  obtain ⟨x', h'⟩ := h.prefix (hE e he) hp
  exact hn x' e he h'

theorem loose_alnum {ds : List Byte} {v : Nat} (h : Loose ds v) : ∀ d ∈ ds, Alnum d := fun d hd =>
  Classical.byContradiction fun hn => h.mem d hd (looseVal_alnum.2 hn)

theorem short_alnum : ∀ e, ShortEscape e → ∀ d ∈ e, Alnum d := by
  rintro e ⟨ds, v, hd, rfl⟩
  exact List.forall_mem_cons.2 ⟨by unfold Alnum; decide, loose_alnum hd.2⟩

theorem long_alnum : ∀ e, LongEscape e → ∀ d ∈ e, Alnum d := by
  rintro e ⟨ds, v, hd, rfl⟩
  exact List.forall_mem_cons.2 ⟨by unfold Alnum; decide, loose_alnum hd.2⟩

theorem c99Str_plain {b : Byte} (h : b < 0xa0) : c99Str b.toNat = [b] := by
  unfold c99Str
  rw [if_pos (show b.toNat < 160 from UInt8.lt_iff_toNat_lt.1 h), u8_of_toNat]

theorem backslash_alnum : ¬ Alnum 0x5c := by unfold Alnum; decide

/-- What is written for a universal character name. -/
theorem c99_name {v : Nat} (h : C99Name v) (hs : Scalar v) (s : List Byte) :
    C99Item (c99Str v) s v ∧ ∃ b t, c99Str v = b :: t ∧ ¬ Alnum b := by
  have hv : v < 0x110000 := by unfold Scalar at hs; omega
  have hn := h
  unfold C99Name at hn
  unfold c99Str
  by_cases h1 : v < 0xa0
  · rw [if_pos h1]
    have ht : (u8 v).toNat = v := (u8_toNat v).trans (by omega)
    refine ⟨?_, _, _, rfl, ?_⟩
    · have := C99Item.plain (b := u8 v) (s := s) (UInt8.lt_iff_toNat_lt.2 (by rw [ht]; exact h1))
        (fun e => by have := congrArg UInt8.toNat e; rw [ht] at this; simp at this; omega)
      rwa [ht] at this
    · unfold Alnum
      rw [ht]
      omega
  rw [if_neg h1]
  by_cases h2 : v < 0x10000
  · rw [if_pos h2]
    exact ⟨.short ⟨hexStr_length _ _, (hexStr_hex' h2).loose (by rw [hexStr_length]; omega)⟩ h, _, _, rfl, backslash_alnum⟩
  · rw [if_neg h2]
    exact ⟨.long ⟨hexStr_length _ _, (hexStr_hex' (by omega)).loose (by rw [hexStr_length]; omega)⟩ h, _, _, rfl, backslash_alnum⟩

theorem c99_same {s : List Byte} {w : List Nat} (h : Items C99Item s w) : (∀ c ∈ w, Scalar c) →
    Same s (w.flatMap c99Str) ∧ Items C99Item (w.flatMap c99Str) w := by
  induction h with
  | nil => exact fun _ => ⟨.nil, .nil⟩
  | @cons a s c w h1 _ ih =>
    intro hs
    obtain ⟨ih1, ih2⟩ := ih fun c hc => hs c (List.mem_cons_of_mem _ hc)
    have hc := hs c (by simp)
    rw [List.flatMap_cons]
    cases h1 with
    | plain h2 h3 =>
      rw [c99Str_plain h2]
      exact ⟨.alnum ih1, .cons (.plain h2 h3) ih2⟩
    | short h2 h3 =>
      obtain ⟨h4, b, t, h5, h6⟩ := c99_name h3 hc (w.flatMap c99Str)
      refine ⟨?_, .cons h4 ih2⟩
      rw [h5]
      exact .stop backslash_alnum h6
    | long h2 h3 =>
      obtain ⟨h4, b, t, h5, h6⟩ := c99_name h3 hc (w.flatMap c99Str)
      refine ⟨?_, .cons h4 ih2⟩
      rw [h5]
      exact .stop backslash_alnum h6
    | backslash h2 h3 =>
      rw [show c99Str 0x5c = [0x5c] from rfl]
      exact ⟨.alnum ih1, .cons (.backslash (ih1.never short_alnum h2) (ih1.never long_alnum h3)) ih2⟩

theorem c99_keeps : c99_entry.Keeps := by
  intro inp cs out ht hs he
  rw [encodes_det he c99_encodes]
  exact (C57_c99_reads _ _).2 (c99_same ((C57_c99_reads _ _).1 ht) hs).2

/-! ## CP1255 -/

/-- What is listed for writing. -/
def cp1255_table : List (List Byte × Nat) := cp1255_from ++ cp1255_irr

theorem cp1255_fun {a b : List Byte} {w : Nat} (h1 : (a, w) ∈ cp1255_table) (h2 : (b, w) ∈ cp1255_table) : a = b := by
  have h3 := (C29_combining_encoders.1 w a).2 h1
  rw [(C29_combining_encoders.1 w b).2 h2] at h3
  exact (Prod.mk.inj (Option.some.inj h3)).1.symm

/-- At most three bytes, shin only at the beginning, and three bytes only after two that are listed. -/
def rowOK (r : List Byte × Nat) : Bool :=
  match r.1 with
  | [_] => true
  | [_, y] => y != 0xf9
  | [x, y, z] => y != 0xf9 && z != 0xf9 && cp1255_read.any (fun q => q.1 == [x, y])
  | _ => false

theorem cp1255_rows_ok : cp1255_read.all rowOK = true := by decide +kernel

theorem cp1255_dagesh : hasRow cp1255_table ([0xf9, 0xcc, 0xd1], 0xfb2c) = true ∧
    hasRow cp1255_table ([0xf9, 0xcc, 0xd2], 0xfb2d) = true := by decide +kernel

theorem rowOK_len {r : List Byte × Nat} (h : r ∈ cp1255_read) : r.1 ≠ [] ∧ r.1.length ≤ 3 := by
  have := List.all_eq_true.1 cp1255_rows_ok r h
  unfold rowOK at this
  split at this
  · rename_i e; rw [e]; simp
  · rename_i e; rw [e]; simp
  · rename_i e; rw [e]; simp
  · cases this

theorem rowOK_split {r : List Byte × Nat} (h : r ∈ cp1255_read) {b t : List Byte} {m : Byte} (hb : b ≠ []) (he : r.1 = b ++ m :: t) :
    m ≠ 0xf9 ∧ ∃ w, (b ++ [m], w) ∈ cp1255_read := by
  have h1 := List.all_eq_true.1 cp1255_rows_ok r h
  obtain ⟨r1, r2⟩ := r
  dsimp only at he
  subst he
  unfold rowOK at h1
  dsimp only at h1
  match b, t, hb with
  | [x], [], _ =>
    exact ⟨bne_iff_ne.1 h1, r2, h⟩
  | [x], [z], _ =>
    simp only [List.cons_append, List.nil_append, Bool.and_eq_true, List.any_eq_true] at h1
    obtain ⟨⟨h2, _⟩, q, hq, h3⟩ := h1
    refine ⟨bne_iff_ne.1 h2, q.2, ?_⟩
    rw [show [x] ++ [m] = q.1 from (eq_of_beq h3).symm]
    exact hq
  | [x, y], [], _ =>
    simp only [List.cons_append, List.nil_append, Bool.and_eq_true] at h1
    exact ⟨bne_iff_ne.1 h1.1.2, r2, h⟩
  | [x], _ :: _ :: _, _ => cases h1
  | [x, y], _ :: _, _ => cases h1
  | x :: y :: z :: b, t, _ =>
    simp only [List.cons_append] at h1
    cases b with
    | nil => cases h1
    | cons => cases h1

/-- What is written for a character that is read: as it was read, or three bytes from shin on. -/
theorem cp1255_written {b : List Byte} {w : Nat} (h : (b, w) ∈ cp1255_read) :
    ∃ e, (e, w) ∈ cp1255_table ∧ (e = b ∨ ∃ x y, e = [0xf9, x, y]) := by
  unfold cp1255_read at h
  rcases List.mem_append.1 h with h | h
  · exact ⟨b, h, .inl rfl⟩
  · unfold cp1255_more at h
    simp only [List.mem_cons, List.not_mem_nil, or_false, Prod.mk.injEq] at h
    rcases h with ⟨_, rfl⟩ | ⟨_, rfl⟩
    · exact ⟨_, hasRow_mem cp1255_dagesh.1, .inr ⟨_, _, rfl⟩⟩
    · exact ⟨_, hasRow_mem cp1255_dagesh.2, .inr ⟨_, _, rfl⟩⟩

theorem cp1255_sub {p : List Byte × Nat} (h : p ∈ cp1255_table) : p ∈ cp1255_read := List.mem_append_left _ h

theorem cp1255_rep {w : Nat} {e bs : List Byte} {os : Nat} (h : (e, w) ∈ cp1255_table)
    (hr : cp1255_entry.enc.rep 0 w = some (bs, os)) : bs = e ∧ os = 0 := by
  have hf := (C29_combining_encoders.1 w e).2 h
  unfold Encoder.rep at hr
  rw [hf] at hr
  dsimp only at hr
  split at hr
  · cases hr
  · cases hr
    exact ⟨rfl, rfl⟩

/-- The rewritten text is read as the same characters, and begins with the same byte or with shin. -/
theorem cp1255_longest {s : List Byte} {w : List Nat} (h : Longest cp1255_read s w) : ∀ bs os,
    cp1255_entry.enc.text 0 w = some (bs, os) → os = 0 ∧ Longest cp1255_read bs w ∧
      ∀ m t, bs = m :: t → m = 0xf9 ∨ ∃ t', s = m :: t' := by
  induction h with
  | nil =>
    intro bs os h
    cases h
    exact ⟨rfl, .nil, nofun⟩
  | @cons b s w cs hm hl _ ih =>
    intro bs os h
    rw [Encoder.text] at h
    obtain ⟨e, he, hb⟩ := cp1255_written hm
    split at h
    · cases h
    · rename_i bs1 os1 hr
      obtain ⟨rfl, rfl⟩ := cp1255_rep he hr
      split at h
      · cases h
      · rename_i bs2 os2 hr2
        obtain ⟨h1, h2, h3⟩ := ih bs2 os2 hr2
        cases h
        have hne := (rowOK_len (cp1255_sub he)).1
        refine ⟨h1, .cons (cp1255_sub he) ?_ h2, ?_⟩
        · intro r hrow t ht
          rcases hb with rfl | ⟨x, y, rfl⟩
          · rcases List.append_eq_append_iff.1 ht with ⟨u, h4, h5⟩ | ⟨u, h4, h5⟩
            · cases u with
              | nil => rw [h4]; simp
              | cons m u =>
                exfalso
                obtain ⟨h6, w', h7⟩ := rowOK_split hrow hne h4
                rcases h3 m (u ++ t) h5 with h8 | ⟨t', h8⟩
                · exact h6 h8
                · have := hl _ h7 t' (by rw [h8]; simp)
                  simp only [List.length_append, List.length_cons, List.length_nil] at this
                  omega
            · rw [h4]; simp
          · exact (rowOK_len hrow).2
        · intro m t hmt
          rcases hb with rfl | ⟨x, y, rfl⟩
          · cases bs1 with
            | nil => exact absurd rfl hne
            | cons m' bs1 =>
              cases hmt
              exact .inr ⟨_, rfl⟩
          · exact .inl (List.cons.inj hmt).1.symm

theorem cp1255_keeps : cp1255_entry.Keeps := by
  intro inp cs out ht _ he
  obtain ⟨bs, os, h1, rfl⟩ := he
  obtain ⟨rfl, h2, _⟩ := cp1255_longest ((C29_combining_exact inp cs).1.1 ht) bs os h1
  have h3 : cp1255_entry.enc.tail 0 = [] := (cp1255_e.senc cp1255_e_ok).tail_eq _
  rw [h3, List.append_nil]
  exact (C29_combining_exact bs cs).1.2 h2

/-! ## Encodings that change their own texts -/

/-- What is written for the characters of the text is read as other characters. -/
def _root_.Reiconv.Entry.unsettled (A : Entry) (inp : List Byte) : Bool :=
  match charsOf A.atom 32 IState.init inp with
  | none => false
  | some (cs0, is) => (cs0 ++ A.dec.kept is).all (fun c => decide (Scalar c)) && A.changes (cs0 ++ A.dec.kept is)

theorem unsettled_sound {A : Entry} {inp : List Byte} (h : A.unsettled inp = true) : ¬ A.Keeps := by
  intro hk
  unfold Entry.unsettled at h
  split at h
  · cases h
  · next cs0 is h1 =>
    rw [Bool.and_eq_true] at h
    obtain ⟨out, ds, h2, h3, h4⟩ := A.changes_sound h.2
    exact h4 (h3.det (hk inp _ out ⟨cs0, is, charsOf_sound h1, rfl⟩
      (fun c hc => of_decide_eq_true (List.all_eq_true.1 h.1 c hc)) h2))

/-- Such texts: `\u005cu00C0` in JAVA, `~~~~` in HZ, and letters with two marks in CP1258 and TCVN. -/
noncomputable def resaved : List (Entry × List Byte) :=
  [(java_entry, [0x5c, 0x75, 0x30, 0x30, 0x35, 0x63, 0x75, 0x30, 0x30, 0x43, 0x30]), (hz_entry, [0x7e, 0x7e, 0x7e, 0x7e]),
   (cp1258_entry, [0x4f, 0xec, 0xde]), (tcvn_entry, [0x4f, 0xb2, 0xb3])]

end Keep

/-- The encodings that change their own texts. -/
def resavedIdx : List Nat := [ei_java, ei_hz, ei_cp1258, ei_tcvn]

namespace Keep

theorem resaved_idx : resaved.map (·.1.idx) = resavedIdx := by decide +kernel
theorem resaved_unsettled : ∀ x ∈ resaved, x.1.unsettled x.2 = true := by decide +kernel
theorem resaved_sources : ∀ x ∈ resaved, x.1 ∈ sources :=
  all_cons (List.mem_of_getElem? (i := 21) rfl) <|
  all_cons (List.mem_of_getElem? (i := 35) rfl) <|
  all_cons (List.mem_of_getElem? (i := 75) rfl) <|
  all_cons (List.mem_of_getElem? (i := 105) rfl) all_nil

/-- The encodings that neither read back all that they write nor write back all that they read, but keep their texts. -/
noncomputable def kept : List Entry :=
  [ucs2_entry, ucs4_entry, utf16_entry, utf32_entry, c99_entry, iso2022_jp_entry, iso2022_jp1_entry, iso2022_jp2_entry,
   iso2022_jp3_entry, iso2022_jpms_entry, iso2022_cn_entry, iso2022_cn_ext_entry, iso2022_kr_entry, cp1255_entry,
   cp932_entry, cp943_entry, cp950_entry]

theorem kept_keeps : ∀ A ∈ kept, A.Keeps :=
  all_cons ucs2_keeps <| all_cons ucs4_keeps <| all_cons utf16_keeps <| all_cons utf32_keeps <| all_cons c99_keeps <|
  all_cons jp_keeps <| all_cons jp1_keeps <| all_cons jp2_keeps <| all_cons jp3_keeps <| all_cons cp50221_keeps <|
  all_cons cn_keeps <| all_cons cnext_keeps <| all_cons kr_keeps <| all_cons cp1255_keeps <| all_cons cp932_keeps <|
  all_cons cp943_keeps <| all_cons cp950_keeps all_nil

theorem kept_sources : ∀ A ∈ kept, A ∈ sources :=
  all_cons (List.mem_of_getElem? (i := 3) rfl) <|
  all_cons (List.mem_of_getElem? (i := 6) rfl) <|
  all_cons (List.mem_of_getElem? (i := 9) rfl) <|
  all_cons (List.mem_of_getElem? (i := 12) rfl) <|
  all_cons (List.mem_of_getElem? (i := 20) rfl) <|
  all_cons (List.mem_of_getElem? (i := 25) rfl) <|
  all_cons (List.mem_of_getElem? (i := 26) rfl) <|
  all_cons (List.mem_of_getElem? (i := 27) rfl) <|
  all_cons (List.mem_of_getElem? (i := 193) rfl) <|
  all_cons (List.mem_of_getElem? (i := 28) rfl) <|
  all_cons (List.mem_of_getElem? (i := 33) rfl) <|
  all_cons (List.mem_of_getElem? (i := 34) rfl) <|
  all_cons (List.mem_of_getElem? (i := 46) rfl) <|
  all_cons (List.mem_of_getElem? (i := 72) rfl) <|
  all_cons (List.mem_of_getElem? (i := 24) rfl) <|
  all_cons (List.mem_of_getElem? (i := 116) rfl) <|
  all_cons (List.mem_of_getElem? (i := 38) rfl) all_nil

theorem changed_cases : ∀ i ∈ changedIdx, i ∈ rewrittenIdx → i ∉ resavedIdx → i ∈ kept.map (·.idx) := by decide +kernel

end Keep

/-! ## C69 -/

/-- C69 for every registered target: whatever text of Unicode characters is read in the encoding, what is written for its
characters in the same encoding is read as these characters, exactly if the encoding is not JAVA, HZ, CP1258 or TCVN. -/
theorem C69_registered : ∀ A ∈ targets, A.Keeps ↔ A.idx ∉ resavedIdx := by
  intro A hA
  constructor
  · intro hk hi
    rw [← Keep.resaved_idx] at hi
    obtain ⟨x, hx, he⟩ := List.mem_map.1 hi
    have hxA : x.1 = A := sources_unique x.1 (Keep.resaved_sources x hx) A (List.mem_cons_of_mem _ hA) he
    exact Keep.unsettled_sound (Keep.resaved_unsettled x hx) (hxA ▸ hk)
  · intro hi
    by_cases h1 : A.idx ∈ changedIdx
    · by_cases h2 : A.idx ∈ rewrittenIdx
      · obtain ⟨B, hB, he⟩ := List.mem_map.1 (Keep.changed_cases _ h1 h2 hi)
        have hBA : B = A := sources_unique B (Keep.kept_sources B hB) A (List.mem_cons_of_mem _ hA) he
        exact hBA ▸ Keep.kept_keeps B hB
      · exact Keep.of_writesBack ((C30_registered A hA).2 h2)
    · exact Keep.of_readsBack ((C42_registered A hA).2 h1)

/-- C69 in terms of the API, for a text `inp` of Unicode characters in any registered target without byte order marks but
JAVA, HZ, CP1258 and TCVN. `out` is what is written for its characters in the same encoding, `z` what is written for them
in any target `C`. Converting `inp` to its own encoding gives `out`. Converting `out` to its own encoding again gives `out`. Both
`inp` and `out`, converted to `C`, give `z`: nobody who reads them can tell them apart. -/
theorem C69_convert_partial : ∀ A ∈ targets, A.idx ∉ markedIdx → A.idx ∉ resavedIdx → ∀ C ∈ targets,
    ∀ (discard : Bool) (inp out z : List Byte) (cs : List Nat) (alloc : Nat → List Byte), (∀ n, (alloc n).length = n) →
    A.Text inp cs → (∀ c ∈ cs, Scalar c) → A.Encodes cs out → C.Encodes cs z →
    ∀ p ∈ [(A, inp, out), (A, out, out), (C, inp, z), (C, out, z)],
      ∃ x, convert (A.conv p.1 discard) St.init p.2.1 true true (fun n => some (alloc n)) = .ok x ∧
        x.ret = .ok () ∧ x.outLen = some p.2.2.length ∧ x.data = some p.2.2 := by
  intro A hA hm hr C _ discard inp out z cs alloc hal ht hs he hz
  have hf := targets_fixed A hA hm
  have ho := (C69_registered A hA).2 hr inp cs out ht hs he
  exact all_cons (convert_text discard hf ht he alloc hal) <| all_cons (convert_text discard hf ho he alloc hal) <|
    all_cons (convert_text discard hf ht hz alloc hal) <| all_cons (convert_text discard hf ho hz alloc hal) all_nil

/-- The hypotheses are met with bytes that change: "あA" in ISO-2022-JP with the older escape sequence and in JIS X 0201 Roman. -/
example : ei_iso2022_jp ∉ markedIdx ∧ ei_iso2022_jp ∉ resavedIdx ∧
    iso2022_jp_entry.Text [0x1b, 0x24, 0x40, 0x24, 0x22, 0x1b, 0x28, 0x4a, 0x41] [0x3042, 0x41] ∧
    iso2022_jp_entry.Encodes [0x3042, 0x41] [0x1b, 0x24, 0x42, 0x24, 0x22, 0x1b, 0x28, 0x42, 0x41] :=
  ⟨by decide, by decide, ⟨[0x3042, 0x41], ⟨0, 1⟩, charsOf_sound (fuel := 32) (by decide +kernel), rfl⟩, jp_example⟩

/-- In the four encodings saving a text in its own encoding changes it: `\u005cu00C0` in JAVA, the characters `\u00C0`,
becomes `\u00C0`, the character À; `~~~~` in HZ becomes `~~`; Ó with a tilde in CP1258 and Õ with an acute in TCVN become the
letter U+1E4C, with both marks. The second of each two conversions, into UCS-4BE, shows what is read. -/
theorem C69_violation :
    (convert (java_entry.conv java_entry false) St.init [0x5c, 0x75, 0x30, 0x30, 0x35, 0x63, 0x75, 0x30, 0x30, 0x43, 0x30] true true
        (fun n => some (List.replicate n 0)) = .ok ⟨.ok (), St.init, some 6, some [0x5c, 0x75, 0x30, 0x30, 0x43, 0x30]⟩ ∧
      convert (java_entry.conv ucs4be_entry false) St.init [0x5c, 0x75, 0x30, 0x30, 0x43, 0x30] true true
        (fun n => some (List.replicate n 0)) = .ok ⟨.ok (), St.init, some 4, some [0, 0, 0, 0xc0]⟩) ∧
    (convert (hz_entry.conv hz_entry false) St.init [0x7e, 0x7e, 0x7e, 0x7e] true true
        (fun n => some (List.replicate n 0)) = .ok ⟨.ok (), St.init, some 2, some [0x7e, 0x7e]⟩ ∧
      convert (hz_entry.conv ucs4be_entry false) St.init [0x7e, 0x7e] true true
        (fun n => some (List.replicate n 0)) = .ok ⟨.ok (), St.init, some 4, some [0, 0, 0, 0x7e]⟩) ∧
    (convert (cp1258_entry.conv cp1258_entry false) St.init [0x4f, 0xec, 0xde] true true
        (fun n => some (List.replicate n 0)) = .ok ⟨.ok (), St.init, some 2, some [0xd3, 0xde]⟩ ∧
      convert (cp1258_entry.conv ucs4be_entry false) St.init [0xd3, 0xde] true true
        (fun n => some (List.replicate n 0)) = .ok ⟨.ok (), St.init, some 4, some [0, 0, 0x1e, 0x4c]⟩) ∧
    convert (tcvn_entry.conv tcvn_entry false) St.init [0x4f, 0xb2, 0xb3] true true
        (fun n => some (List.replicate n 0)) = .ok ⟨.ok (), St.init, some 2, some [0x94, 0xb3]⟩ ∧
      convert (tcvn_entry.conv ucs4be_entry false) St.init [0x94, 0xb3] true true
        (fun n => some (List.replicate n 0)) = .ok ⟨.ok (), St.init, some 4, some [0, 0, 0x1e, 0x4c]⟩ := by
  refine ⟨⟨?_, ?_⟩, ⟨?_, ?_⟩, ⟨?_, ?_⟩, ?_, ?_⟩ <;> decide +kernel

end Reiconv
