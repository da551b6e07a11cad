import Verif.CompEntries
import Verif.Gen.CompData
import Verif.Props.Single

/-!
# CP1255, CP1258 and TCVN; flushing a pending character
-/

namespace Reiconv

/-- C03 and C11 are violated. The decoder of CP1255 has read a letter that could combine with the next
one (`istate ≠ 0`); the output buffer is exactly full. Flushing with `reiconv_iconv`, or converting such
a text with `reiconv_convert_static_size` into a buffer that is one byte too small, stores a byte behind
the end of the buffer. (The letter is U+05D0, the target encoding ISO-8859-8.) -/
theorem C03_flush_overflow :
    (∃ s, Reach (cp1255_entry.conv iso8859_8_entry false) s ∧
      iconv (cp1255_entry.conv iso8859_8_entry false) s none (some ⟨false, [], []⟩) = .ub) ∧
    convertStatic (cp1255_entry.conv iso8859_8_entry false) St.init [0x41, 0xE0]
      ⟨false, [], [0]⟩ = .ub ∧
    resultSize (cp1255_entry.conv iso8859_8_entry false) St.init [0x41, 0xE0] =
      .ok (.ok 2, St.init) := by
  refine ⟨⟨⟨⟨0, 0x5d0⟩, 0⟩, ?_, by decide +kernel⟩, by decide +kernel, by decide +kernel⟩
  exact ⟨[.iconv (some [0xE0]) (some ⟨false, [], [0]⟩)], by decide +kernel⟩

/-- The same for every target encoding made of single bytes, in every state with a pending character that
the target encoding can represent. -/
theorem C03_flush_overflow_all (A : Entry) (e : SB) (he : e.safe = true) (hu : unitOf e.index = 1)
    (discard : Bool) (s : St) (h : Reach (A.conv (sbEntry e he hu) discard) s) (w b : Nat)
    (hw : A.dec.kept s.is = [w]) (hb : e.encode w = some b) (out : List Byte) :
    iconv (A.conv (sbEntry e he hu) discard) s none (some ⟨false, out, []⟩) = .ub := by
  have hos : s.os = 0 := (Entry.inv A (sbEntry e he hu) h).2
  unfold Decoder.kept at hw
  show loopReset (A.conv (sbEntry e he hu) discard) s ⟨false, out, []⟩ = .ub
  unfold loopReset
  have hd : (A.conv (sbEntry e he hu) discard).dec = A.dec := rfl
  rw [hd]
  cases hf : A.dec.flushwc with
  | none => rw [hf] at hw; cases hw
  | some f =>
    rw [hf] at hw
    simp only at hw
    have hf1 : (f s.is).1 = some w := by
      cases hx : (f s.is).1 with
      | none => rw [hx] at hw; cases hw
      | some x => rw [hx] at hw; cases hw; rfl
    simp only [hf1]
    have hm : (A.conv (sbEntry e he hu) discard).enc.wctomb s.os w 0 = .ok (.put [u8 b] s.os) := by
      have := (e.senc he).eq s.os w 0
      rw [if_pos (show (e.senc he).need w ≤ 0 from Nat.le_refl 0)] at this
      simp only [SB.senc, hb, Option.map_some] at this
      exact this
    have hp : putChar (A.conv (sbEntry e he hu) discard) s.os w ⟨false, out, []⟩ = .ub := by
      unfold putChar callWctomb
      simp only [List.length_nil, hm, Outcome.bind_ok]
      rfl
    rw [hp]; rfl

/-! ## Agreement with the published tables -/

/-- The characters for which the encoder has a branch. -/
def CompEnc.domain (e : CompEnc) : List Nat :=
  (e.er.flatMap fun r => (List.range (r.hi - r.lo)).map (r.lo + ·)) ++ e.rows.map (·.1)

/-- What the encoder writes with enough room. -/
def CompEnc.bytes (e : CompEnc) (wc : Nat) : Option (List Byte) :=
  match e.wctomb 0 wc 64 with
  | .ok ⟨.wrote _, ws, _⟩ => some ws
  | _ => none

theorem CompEnc.domain_of {e : CompEnc} (h : e.Ok) {wc : Nat} {bs : List Byte}
    (hb : e.bytes wc = some bs) : wc ∈ e.domain := by
  unfold CompEnc.bytes CompEnc.wctomb at hb
  have h1 := (sbEncode_fast h.rules wc).1
  simp only [h1, Outcome.bind_ok] at hb
  unfold CompEnc.domain
  rw [List.mem_append]
  cases hx : encF e.er wc with
  | succ n =>
    obtain ⟨r, h2, h3, h4⟩ := encF_covered (rs := e.er) (c := wc) (by rw [hx]; simp)
    left
    rw [List.mem_flatMap]
    refine ⟨r, h2, ?_⟩
    rw [List.mem_map]
    exact ⟨wc - r.lo, List.mem_range.2 (by omega), by omega⟩
  | zero =>
    right
    rw [hx] at hb
    simp only [ofCode] at hb
    have hl : 0 < e.rows.length := List.length_pos_iff.2 h.rows
    obtain ⟨r, hr1, hr2⟩ := searchRows_ok (x := wc)
      (key := fun i => do let r ← rowAt e.rows i; return r.1)
      (i1 := 0) (i2 := e.rows.length - 1) (by omega) (by
        intro i _ hi
        have : i < e.rows.length := by omega
        exact ⟨e.rows[i].1, by simp only [rowAt_ok this, Outcome.bind_ok, Outcome.pure_eq]⟩)
    rw [hr1] at hb
    simp only [Outcome.bind_ok] at hb
    cases r with
    | none => cases hb
    | some i =>
      obtain ⟨_, h3, h4⟩ := hr2 i rfl
      have hi : i < e.rows.length := by omega
      simp only [rowAt_ok hi, Outcome.bind_ok, Outcome.pure_eq, Outcome.ok.injEq] at h4
      rw [List.mem_map]
      exact ⟨e.rows[i], List.getElem_mem hi, h4⟩

theorem CompEnc.bytes_full {e : CompEnc} (h : e.Ok) (os wc : Nat) :
    e.enc.full os wc = (e.bytes wc).map fun bs => (bs, os) := by
  have h1 := (e.senc h).full_eq
  have h2 : e.bytes wc = (e.senc h).enc wc := by
    have := h1 0 wc
    have h3 : e.enc.full 0 wc = match e.wctomb 0 wc 64 with
      | .ok ⟨.wrote _, ws, st⟩ => some (ws, st)
      | _ => none := rfl
    unfold CompEnc.bytes
    rw [h3] at this
    revert this
    split
    · next hx =>
      intro h4
      cases he : (e.senc h).enc wc with
      | none => rw [he] at h4; cases h4
      | some y => rw [he] at h4; cases h4; rfl
    · next hx =>
      intro h4
      cases he : (e.senc h).enc wc with
      | none => rfl
      | some y => rw [he] at h4; cases h4
  rw [h2]; exact h1 os wc

/-- Every row of the list is written as listed. -/
def CompEnc.agrees (e : CompEnc) (l : List (List Byte × Nat)) : Bool :=
  l.all fun p => e.bytes p.2 == some p.1

/-- Everything that is written is listed. -/
def CompEnc.within (e : CompEnc) (l : List (List Byte × Nat)) : Bool :=
  e.domain.all fun w => match e.bytes w with
    | none => true
    | some bs => l.any fun p => cond (Nat.beq p.2 w) (p.1 == bs) false

theorem CompEnc.table {e : CompEnc} (he : e.Ok) {l : List (List Byte × Nat)} (h1 : e.agrees l = true)
    (h2 : e.within l = true) (wc : Nat) (bs : List Byte) :
    e.enc.full 0 wc = some (bs, 0) ↔ (bs, wc) ∈ l := by
  rw [CompEnc.bytes_full he]
  constructor
  · intro h
    cases hb : e.bytes wc with
    | none => rw [hb] at h; cases h
    | some y =>
      rw [hb] at h; cases h
      have := List.all_eq_true.1 h2 wc (CompEnc.domain_of he hb)
      rw [hb] at this
      obtain ⟨p, hp, h3⟩ := List.any_eq_true.1 this
      cases h4 : Nat.beq p.2 wc with
      | false => rw [h4] at h3; cases h3
      | true =>
        rw [h4] at h3
        have h5 := Nat.eq_of_beq_eq_true h4
        have h6 : p.1 = bs := eq_of_beq h3
        rw [← h5, ← h6]; exact hp
  · intro h
    have := List.all_eq_true.1 h1 _ h
    rw [eq_of_beq this]; rfl

theorem cp1255_agrees : cp1255_e.agrees (cp1255_from ++ cp1255_irr) = true := by decide +kernel
theorem cp1255_within : cp1255_e.within (cp1255_from ++ cp1255_irr) = true := by decide +kernel
theorem cp1258_agrees : cp1258_e.agrees (cp1258_from ++ cp1258_irr) = true := by decide +kernel
theorem cp1258_within : cp1258_e.within (cp1258_from ++ cp1258_irr) = true := by decide +kernel
theorem tcvn_agrees : tcvn_e.agrees (tcvn_from ++ tcvn_irr) = true := by decide +kernel
theorem tcvn_within : tcvn_e.within (tcvn_from ++ tcvn_irr) = true := by decide +kernel

/-- C29 for the encoders of CP1255, CP1258 and TCVN: a character is representable exactly if the published
tables list it, and is written as listed. -/
theorem C29_combining_encoders :
    (∀ wc bs, cp1255_entry.enc.full 0 wc = some (bs, 0) ↔ (bs, wc) ∈ cp1255_from ++ cp1255_irr) ∧
    (∀ wc bs, cp1258_entry.enc.full 0 wc = some (bs, 0) ↔ (bs, wc) ∈ cp1258_from ++ cp1258_irr) ∧
    (∀ wc bs, tcvn_entry.enc.full 0 wc = some (bs, 0) ↔ (bs, wc) ∈ tcvn_from ++ tcvn_irr) :=
  ⟨CompEnc.table cp1255_e_ok cp1255_agrees cp1255_within,
    CompEnc.table cp1258_e_ok cp1258_agrees cp1258_within,
    CompEnc.table tcvn_e_ok tcvn_agrees tcvn_within⟩

/-- The characters of a text, computed. -/
def charsOf (atom : IState → List Byte → Atom) : Nat → IState → List Byte → Option (List Nat × IState)
  | _, is, [] => some ([], is)
  | 0, _, _ => none
  | fuel + 1, is, b :: s =>
    match atom is (b :: s) with
    | .char wc n is' => (charsOf atom fuel is' ((b :: s).drop n)).map fun x => (wc :: x.1, x.2)
    | .shift n is' => charsOf atom fuel is' ((b :: s).drop n)
    | _ => none

theorem charsOf_sound {atom : IState → List Byte → Atom} : ∀ {fuel is s cs is'},
    charsOf atom fuel is s = some (cs, is') → Chars atom is s cs is' := by
  intro fuel
  induction fuel with
  | zero =>
    intro is s cs is' h
    cases s with
    | nil => cases h; exact .nil _
    | cons b s => cases h
  | succ fuel ih =>
    intro is s cs is' h
    cases s with
    | nil => cases h; exact .nil _
    | cons b s =>
      unfold charsOf at h
      split at h
      · next wc n is1 ha =>
        simp only [Option.map_eq_some_iff] at h
        obtain ⟨x, hx, h2⟩ := h
        cases h2
        exact .char (by simp) ha (ih hx)
      · next n is1 ha => exact .shift (by simp) ha (ih h)
      · cases h

/-- Every row of the list is read as listed. -/
def CompDec.agrees (d : CompDec) (l : List (List Byte × Nat)) : Bool :=
  l.all fun p => match charsOf d.atom 8 IState.init p.1 with
    | none => false
    | some (cs, is) => cs ++ (normal_flushwc is).1.toList == [p.2]

theorem cp1255_reads : cp1255_d.agrees (cp1255_from ++ cp1255_irr) = true := by decide +kernel
theorem cp1258_reads : cp1258_d.agrees ((cp1258_from ++ cp1258_irr).filter
    fun p => ![0x340, 0x341, 0x1fee].contains p.2) = true := by decide +kernel
theorem tcvn_reads : tcvn_d.agrees ((tcvn_from ++ tcvn_irr).filter
    fun p => ![0x340, 0x341, 0xb4, 0x2dc].contains p.2) = true := by decide +kernel

theorem CompDec.reads {d : CompDec} {l : List (List Byte × Nat)} (h : d.agrees l = true) :
    ∀ p ∈ l, ∃ cs0 is, Chars d.atom IState.init p.1 cs0 is ∧ [p.2] = cs0 ++ d.dec.kept is := by
  intro p hp
  have := List.all_eq_true.1 h p hp
  split at this
  · cases this
  · next cs is hc => exact ⟨cs, is, charsOf_sound hc, (eq_of_beq this).symm⟩

/-- C29 for the decoders of CP1255, CP1258 and TCVN: the bytes listed for a character are a text with this
character. The exceptions are characters for which the tables list the bytes of another character that
looks the same: the tone marks U+0340 and U+0341, U+1FEE, and in TCVN the accents U+00B4 and U+02DC. -/
theorem C29_combining_decoders :
    (∀ p ∈ cp1255_from ++ cp1255_irr, cp1255_entry.Text p.1 [p.2]) ∧
    (∀ p ∈ cp1258_from ++ cp1258_irr, p.2 ∉ [0x340, 0x341, 0x1fee] → cp1258_entry.Text p.1 [p.2]) ∧
    (∀ p ∈ tcvn_from ++ tcvn_irr, p.2 ∉ [0x340, 0x341, 0xb4, 0x2dc] → tcvn_entry.Text p.1 [p.2]) :=
  ⟨CompDec.reads cp1255_reads,
    fun p hp h => CompDec.reads cp1258_reads p (List.mem_filter.2 ⟨hp, by simpa using h⟩),
    fun p hp h => CompDec.reads tcvn_reads p (List.mem_filter.2 ⟨hp, by simpa using h⟩)⟩

end Reiconv
