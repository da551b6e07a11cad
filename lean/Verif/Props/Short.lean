import Verif.Short
import Verif.Props.Convert

/-!
# C68: an incomplete sequence is short

`longest` (`Verif/Short.lean`) lists, for each source encoding, the number of bytes a call needs to see.
-/

namespace Reiconv

namespace Skip

/-- C68: when a conversion call stops with `EINVAL`, fewer bytes are left unread than the longest sequence of the source
encoding has, whatever was converted before. -/
theorem _root_.Reiconv.C68_left (A : Entry) (hA : A ∈ sources) (B : Entry) (discard : Bool) (s : St) (h : Reach (A.conv B discard) s)
    (inp room : List Byte) {r} (hr : iconv (A.conv B discard) s (some inp) (some ⟨false, [], room⟩) = .ok r)
    (he : r.ret = .error .EINVAL) : 1 ≤ r.inp.length ∧ r.inp.length < longest A.idx := by
  rcases C04_return_contract A B discard s h inp room hr with
    ⟨n, h1, _⟩ | ⟨h1, _⟩ | ⟨h1, h2, h3, _⟩ | ⟨h1, _⟩
  · rw [h1] at he; cases he
  · rw [h1] at he; cases he
  · have hreach : Reach (A.conv B discard) r.st :=
      h.step (k := .iconv (some inp) (some ⟨false, [], room⟩)) (by simp [Call.after, hr])
    have hI := (Entry.inv A B hreach).1
    refine ⟨Nat.pos_of_ne_zero fun h => h2 (List.eq_nil_of_length_eq_zero h), Nat.lt_of_not_le fun hl => ?_⟩
    exact fits_sources A hA _ _ hI hl (longest_pos _) h3
  · rw [h1] at he; cases he

/-- C68: eleven bytes are enough to keep what is left, for every source encoding. -/
theorem _root_.Reiconv.C68_eleven (A : Entry) (hA : A ∈ sources) (B : Entry) (discard : Bool) (s : St) (h : Reach (A.conv B discard) s)
    (inp room : List Byte) {r} (hr : iconv (A.conv B discard) s (some inp) (some ⟨false, [], room⟩) = .ok r)
    (he : r.ret = .error .EINVAL) : r.inp.length ≤ 11 := by
  have := (C68_left A hA B discard s h inp room hr he).2
  have : longest A.idx ≤ 12 := by
    unfold longest
    repeat' split
    all_goals omega
  omega

/-- C68: for an encoding that is not in the lists of `longest` no input is incomplete. -/
theorem _root_.Reiconv.C68_never (A : Entry) (hA : A ∈ sources) (h1 : longest A.idx = 1) (B : Entry) (discard : Bool) (s : St)
    (h : Reach (A.conv B discard) s) (inp room : List Byte) {r}
    (hr : iconv (A.conv B discard) s (some inp) (some ⟨false, [], room⟩) = .ok r) : r.ret ≠ .error .EINVAL := by
  intro he
  have := C68_left A hA B discard s h inp room hr he
  omega

/-! ## The bound is exact -/

/-- An incomplete sequence of each encoding that has one, of the greatest length. -/
def partialSeq (idx : Nat) : List Byte :=
  if idx = ei_java then [0x5c, 0x75, 0x64, 0x38, 0x30, 0x30, 0x5c, 0x75, 0x64, 0x63, 0x30]
  else if idx = ei_c99 then [0x5c, 0x55, 0x30, 0x30, 0x30, 0x31, 0x46, 0x36, 0x30]
  else if idx = ei_utf7 then [0x2b, 0x32, 0x44, 0x33, 0x63, 0x41]
  else if longest idx = 4 then
    if idx ∈ [ei_gb18030_2005, ei_gb18030_2022] then [0x81, 0x30, 0x81]
    else if idx = ei_euc_tw then [0x8e, 0xa2, 0xa1]
    else if idx = ei_dec_hanyu then [0xc2, 0xcb, 0xa1]
    else if idx = ei_utf8 then [0xf0, 0x9f, 0x98]
    else if idx = ei_utf16le then [0x00, 0xd8, 0x00]
    else if idx ∈ [ei_utf16, ei_utf16be] then [0xd8, 0x00, 0xdc]
    else if idx ∈ [ei_iso2022_kr, ei_iso2022_cn, ei_iso2022_cn_ext] then [0x1b, 0x24, 0x29]
    else if idx ∈ [ei_iso2022_jp1, ei_iso2022_jp2, ei_iso2022_jp3, ei_iso2022_jpms] then [0x1b, 0x24, 0x28]
    else [0, 0, 0]
  else if longest idx = 3 then
    if idx = ei_iso2022_jp then [0x1b, 0x24] else [0x8f, 0xa2]
  else if longest idx = 2 then
    if idx = ei_hz then [0x7e]
    else if idx ∈ [ei_gb2312, ei_ksc5601, ei_jisx0208, ei_jisx0212, ei_isoir165] then [0x30]
    else if idx ∈ [ei_sjis, ei_cp932, ei_cp943, ei_shift_jisx0213] then [0x89]
    else [0xb0]
  else []

/-- The decoder stops at the end of the input, and one byte less than the longest sequence is left. -/
def stops (A : Entry) : Bool :=
  match A.atom IState.init (partialSeq A.idx) with
  | .more => (partialSeq A.idx).length + 1 == longest A.idx
  | .shift n is => (match A.atom is ((partialSeq A.idx).drop n) with | .more => true | _ => false) &&
      ((partialSeq A.idx).drop n).length + 1 == longest A.idx
  | _ => false

theorem sources_stop : ∀ A ∈ sources, (longest A.idx == 1 || stops A) = true := by
  rw [← List.all_eq_true]
  decide +kernel

/-- C68: the bound cannot be improved for any source encoding: there is an input after which one byte less is left. -/
theorem _root_.Reiconv.C68_exact (A : Entry) (hA : A ∈ sources) (h1 : longest A.idx ≠ 1) : ∃ inp, ∀ (B : Entry) (discard : Bool) (room : List Byte),
    64 ≤ room.length → ∃ r, iconv (A.conv B discard) St.init (some inp) (some ⟨false, [], room⟩) = .ok r ∧
      r.ret = .error .EINVAL ∧ r.inp.length + 1 = longest A.idx := by
  have h2 := sources_stop A hA
  rw [Bool.or_eq_true] at h2
  have h2 := h2.resolve_left (by simpa using h1)
  refine ⟨partialSeq A.idx, fun B discard room hroom => ?_⟩
  obtain ⟨s', left, hrun, hl⟩ : ∃ s' left, Runs A.atom (A.conv B discard) St.init (partialSeq A.idx) [] 0 (.einval s' left) ∧
      left.length + 1 = longest A.idx := by
    have hne : ∀ l : List Byte, l.length + 1 = longest A.idx → l ≠ [] := by
      rintro l h rfl
      simp at h
      omega
    unfold stops at h2
    split at h2
    · next ha =>
      have h2 := eq_of_beq h2
      exact ⟨_, _, .more (hne _ h2) ha, h2⟩
    · next n is ha =>
      rw [Bool.and_eq_true] at h2
      have h3 := eq_of_beq h2.2
      have h4 := h2.1
      split at h4
      · next hm =>
        refine ⟨_, _, .shift (s := St.init) ?_ ha (.more (s := ⟨is, 0⟩) (hne _ h3) hm), h3⟩
        intro hc
        rw [hc] at h3
        simp at h3
        omega
      · cases h4
    · cases h2
  obtain ⟨r, hr⟩ := C01_convert_safe_partial A B discard St.init (Reach.init _) (partialSeq A.idx) room
  refine ⟨r, hr, ?_⟩
  rcases C04_return_contract A B discard St.init (Reach.init _) (partialSeq A.idx) room hr with
    ⟨n, h1, h2, h3⟩ | ⟨h1, h2, h3⟩ | ⟨h1, h2, h3, n, h4⟩ | ⟨h1, h2, h3, n, h4⟩
  · cases (runs_det hrun h3).2.2
  · exfalso
    obtain ⟨_, hlen, irr, hc⟩ := C02_accounting A B discard St.init (Reach.init _) (partialSeq A.idx) room hr
    obtain ⟨wc, n, is, _, h64, _⟩ := h3
    have hreach : Reach (A.conv B discard) r.st :=
      (Reach.init _).step (k := .iconv (some (partialSeq A.idx)) (some ⟨false, [], room⟩)) (by simp [Call.after, hr])
    obtain ⟨o, i, f, hrun', _⟩ := runs_exists A B discard r.st hreach r.inp
    have := hc [] o i f (by simpa using hrun')
    rw [List.append_nil] at this
    have h5 := (runs_det hrun this).1
    rw [(List.append_eq_nil_iff.1 h5.symm).1] at hlen
    simp at hlen
    omega
  · have := (runs_det hrun h4).2.2
    cases this
    exact ⟨h1, hl⟩
  · cases (runs_det hrun h4).2.2

/-- The hypotheses are met: JAVA, with a surrogate pair that has been cut off after the letters and half of the second escape. -/
example : ∃ r, iconv (java_entry.conv utf8_entry false) St.init
    (some [0x61, 0x5c, 0x75, 0x64, 0x38, 0x30, 0x30, 0x5c, 0x75, 0x64, 0x63, 0x30]) (some ⟨false, [], List.replicate 64 0⟩) = .ok r ∧
    r.ret = .error .EINVAL ∧ r.inp.length = 11 := ⟨_, rfl, rfl, rfl⟩

example : longest ei_java = 12 ∧ longest ei_utf8 = 4 ∧ longest ei_euc_jp = 3 ∧ longest ei_sjis = 2 ∧ longest ei_cp1252 = 1 := by
  decide +kernel

end Skip

end Reiconv
