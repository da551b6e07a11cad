import Verif.Props.Single

/-!
# C30: from A to B and back

The property holds for a source whose texts are what its encoder writes (`DecRev`) and a target whose
encoder output decodes to the encoded characters (`EncRev`). For the encodings in `exactEntries`
both hold.
-/

namespace Reiconv

/-- Every text of `A` is the output of its encoder for the characters of the text. -/
def Entry.DecRev (A : Entry) : Prop :=
  ∀ inp cs, A.Text inp cs → A.Encodes cs inp ∧ ∀ c ∈ cs, c < 4294967296

/-- What the encoder of `B` writes for 32 bit characters decodes to these characters. -/
def Entry.EncRev (B : Entry) : Prop :=
  ∀ cs out, (∀ c ∈ cs, c < 4294967296) → B.Encodes cs out → B.Text out cs

theorem Entry.Exact.decRev {A : Entry} (h : A.Exact) : A.DecRev := fun inp cs ht => (h inp cs).1 ht
theorem Entry.Exact.encRev {A : Entry} (h : A.Exact) : A.EncRev := fun cs out h1 h2 => (h out cs).2 ⟨h2, h1⟩

theorem chars_of_tagged {atom unit} {E : Encoder} {s : St} {inp o i f}
    (h : RunsG atom unit false (exactOrTag E) s inp o i f) : ∀ s', f = .done s' →
    ∃ cs, Chars atom s.is inp cs s'.is ∧
      ((∀ c ∈ cs, isTag c = false) → E.text s.os cs = some (o, s'.os)) := by
  induction h with
  | done s => rintro _ ⟨⟩; exact ⟨[], .nil _, fun _ => rfl⟩
  | more _ _ => rintro _ ⟨⟩
  | stop _ _ _ => rintro _ ⟨⟩
  | unenc _ _ _ => rintro _ ⟨⟩
  | skip _ _ h _ _ => cases h
  | shift hne ha _ ih =>
    intro s' hs
    obtain ⟨cs, h1, h2⟩ := ih s' hs
    exact ⟨cs, .shift hne ha h1, h2⟩
  | @char s inp wc n is bs os i out irr fin hne ha he _ ih =>
    intro s' hs
    obtain ⟨cs, h1, h2⟩ := ih s' hs
    refine ⟨wc :: cs, .char hne ha h1, ?_⟩
    intro ht
    simp only [List.mem_cons, forall_eq_or_imp] at ht
    have h2 := h2 ht.2
    simp only [exactOrTag] at he
    cases hf : E.full s.os wc with
    | none => rw [hf] at he; simp [ht.1] at he
    | some x =>
      rw [hf] at he
      cases he
      simp only [Encoder.text, Encoder.rep_some hf (fun h => by rw [ht.1] at h; cases h)]
      simp only at h2
      rw [h2]

theorem round_trip_text (A B : Entry) (hBf : B.FixedOrder) (inp room room2 : List Byte) {r r2}
    (hA : ∀ cs, A.Text inp cs → A.Encodes cs inp)
    (hB : ∀ cs out, A.Text inp cs → B.Encodes cs out → B.Text out cs)
    (hr : iconv (A.conv B false) St.init (some inp) (some ⟨false, [], room⟩) = .ok r)
    (hret : r.ret = .ok 0)
    (hr2 : iconv (A.conv B false) r.st none (some ⟨false, [], room2⟩) = .ok r2)
    (hret2 : r2.ret = .ok 0)
    (htag : ∀ cs, A.Text inp cs → ∀ c ∈ cs, isTag c = false)
    (discard : Bool) (alloc : Nat → List Byte) (hal : ∀ n, (alloc n).length = n) :
    ∃ x, convert (B.conv A discard) St.init (r.buf.out ++ r2.buf.out) true true
        (fun n => some (alloc n)) = .ok x ∧ x.ret = .ok () ∧ x.data = some inp := by
  have h1 := (C15_return_counts A B false St.init (.init _) inp room hr hret).2 rfl
  obtain ⟨cs, h2, h3⟩ := chars_of_tagged h1 _ rfl
  have htext : A.Text inp (cs ++ A.dec.kept r.st.is) := ⟨cs, _, h2, rfl⟩
  have ht := htag _ htext
  have h3 : B.enc.text 0 cs = some (r.buf.out, r.st.os) :=
    h3 (fun c hc => ht c (List.mem_append.2 (.inl hc)))
  -- the flush call
  have hinv : A.decOK.Inv r.st.is ∧ B.encOK.Inv r.st.os := by
    obtain ⟨r', e, irr, hr', hp⟩ := iconv_spec (c := A.conv B false) A.decOK B.encOK St.init inp
      ⟨false, [], room⟩ A.decOK.inv_init B.encOK.inv_init (fun _ => rfl)
    rw [hr] at hr'; cases hr'
    exact ⟨hp.inv_is, hp.inv_os⟩
  have hr2' : loopReset (A.conv B false) r.st ⟨false, [], room2⟩ = .ok r2 := hr2
  obtain ⟨r3, e, irr, h4, h5⟩ := reset_spec (c := A.conv B false) A.decOK B.encOK r.st
    ⟨false, [], room2⟩ hinv.1 hinv.2 rfl ⟨_, hr2'⟩
  rw [hr2'] at h4; cases h4
  have h6 := h5.res
  rw [hret2] at h6
  obtain ⟨h8, h7, _⟩ := h6
  have hout : r2.buf.out = e := by simpa using h5.out_eq
  have henc : B.Encodes (cs ++ A.dec.kept r.st.is) (r.buf.out ++ r2.buf.out) := by
    unfold Entry.Encodes
    rw [Encoder.text_append, h3, ← pending_kept (B := B) (discard := false) (os := r.st.os), hout]
    have hp : pending (A.conv B false) ⟨r.st.is, r.st.os⟩ = pending (A.conv B false) r.st := rfl
    rw [hp]
    unfold finish at h8
    cases hpend : (pending (A.conv B false) r.st).1 with
    | none =>
      rw [hpend] at h8
      cases h8
      exact ⟨_, _, rfl, by simp [Entry.conv]⟩
    | some wc =>
      rw [hpend] at h8
      have hwc : isTag wc = false := by
        refine ht wc (List.mem_append.2 (.inr ?_))
        rw [← pending_kept (B := B) (discard := false) (os := r.st.os), hp, hpend]; simp
      have hirr : irr = 0 := by omega
      have h9 : (match encChar B.enc false r.st.os wc with
        | some (bs, os, i) => some (bs ++ B.enc.tail os, i)
        | none => none) = some (e, irr) := h8
      unfold encChar at h9
      simp only [Option.toList_some, Encoder.text]
      cases hf : B.enc.full r.st.os wc with
      | some x =>
        obtain ⟨bs, os⟩ := x
        rw [hf] at h9
        cases h9
        rw [Encoder.rep_some hf (fun h => by rw [hwc] at h; cases h)]
        exact ⟨_, _, rfl, by simp⟩
      | none =>
        rw [hf] at h9
        simp only [hwc, Bool.false_eq_true, if_false] at h9
        cases hf2 : B.enc.full r.st.os 0xFFFD with
        | none => rw [hf2] at h9; cases h9
        | some y => rw [hf2] at h9; cases h9; cases hirr
  obtain ⟨x, h11, h12, _, h13⟩ := convert_text discard hBf (hB _ _ htext henc) (hA _ htext) alloc hal
  exact ⟨x, h11, h12, h13⟩

/-- C30, partial. `A` and `B` reversible, no discard flag. If converting the text `inp` from `A` to `B`
with one call of `reiconv_iconv` and the flush call returns 0 both times, and the text contains no tag characters
(U+E0000 to U+E007F), then converting all that was written from `B` back to `A` gives `inp`. Missing:
tag characters, for which it is false (`C30_tags_lost`), as it is with the discard flag and invalid
input (`C30_discard_lost`). -/
theorem C30_round_trip_partial (A B : Entry) (hA : A.DecRev) (hB : B.EncRev) (hBf : B.FixedOrder)
    (inp room room2 : List Byte) {r r2}
    (hr : iconv (A.conv B false) St.init (some inp) (some ⟨false, [], room⟩) = .ok r)
    (hret : r.ret = .ok 0)
    (hr2 : iconv (A.conv B false) r.st none (some ⟨false, [], room2⟩) = .ok r2)
    (hret2 : r2.ret = .ok 0)
    (htag : ∀ cs, A.Text inp cs → ∀ c ∈ cs, isTag c = false)
    (discard : Bool) (alloc : Nat → List Byte) (hal : ∀ n, (alloc n).length = n) :
    ∃ x, convert (B.conv A discard) St.init (r.buf.out ++ r2.buf.out) true true
        (fun n => some (alloc n)) = .ok x ∧ x.ret = .ok () ∧ x.data = some inp :=
  round_trip_text A B hBf inp room room2 (fun cs h => (hA inp cs h).1) (fun cs out h1 h2 => hB cs out (hA inp cs h1).2 h2)
    hr hret hr2 hret2 htag discard alloc hal

/-- The reversible Unicode encodings. -/
def exactUni : List Entry :=
  [utf8_entry, utf16be_entry, utf16le_entry, utf32be_entry, utf32le_entry, ucs2be_entry,
    ucs2le_entry, ucs2internal_entry, ucs2swapped_entry, ucs4be_entry, ucs4le_entry,
    ucs4internal_entry, ucs4swapped_entry]

theorem exactUni_ok : ∀ A ∈ exactUni, A.Exact ∧ A.FixedOrder := by
  unfold exactUni
  simp only [List.forall_mem_cons, List.not_mem_nil, false_implies, implies_true, and_true]
  exact ⟨⟨utf8_exact, simple_fixed⟩, ⟨utf16be_exact, simple_fixed⟩, ⟨utf16le_exact, simple_fixed⟩,
    ⟨utf32be_exact, simple_fixed⟩, ⟨utf32le_exact, simple_fixed⟩, ⟨ucs2be_exact, simple_fixed⟩,
    ⟨ucs2le_exact, simple_fixed⟩, ⟨ucs2internal_exact, simple_fixed⟩, ⟨ucs2swapped_exact, simple_fixed⟩,
    ⟨ucs4be_exact, simple_fixed⟩, ⟨ucs4le_exact, simple_fixed⟩, ⟨ucs4internal_exact, simple_fixed⟩,
    ⟨ucs4swapped_exact, simple_fixed⟩⟩

/-- The reversible encodings: the Unicode encodings above and the single-byte encodings without
irreversible pairs. -/
def Reversible (A : Entry) : Prop :=
  A ∈ exactUni ∨ ∃ r ∈ singleRows, r.irr = [] ∧ A = r.entry

theorem Reversible.ok {A : Entry} (h : Reversible A) : A.DecRev ∧ A.EncRev ∧ A.FixedOrder := by
  rcases h with h | ⟨r, h1, h2, rfl⟩
  · obtain ⟨h1, h2⟩ := exactUni_ok A h
    exact ⟨h1.decRev, h1.encRev, h2⟩
  · have := singleRows_exact r h1 h2
    exact ⟨this.decRev, this.encRev, singleRows_fixed r h1⟩

/-- C30 for every pair of encodings that satisfy `Reversible`. -/
theorem C30_reversible_partial (A B : Entry) (hA : Reversible A) (hB : Reversible B)
    (inp room room2 : List Byte) {r r2}
    (hr : iconv (A.conv B false) St.init (some inp) (some ⟨false, [], room⟩) = .ok r)
    (hret : r.ret = .ok 0)
    (hr2 : iconv (A.conv B false) r.st none (some ⟨false, [], room2⟩) = .ok r2)
    (hret2 : r2.ret = .ok 0)
    (htag : ∀ cs, A.Text inp cs → ∀ c ∈ cs, isTag c = false)
    (discard : Bool) (alloc : Nat → List Byte) (hal : ∀ n, (alloc n).length = n) :
    ∃ x, convert (B.conv A discard) St.init (r.buf.out ++ r2.buf.out) true true
        (fun n => some (alloc n)) = .ok x ∧ x.ret = .ok () ∧ x.data = some inp :=
  C30_round_trip_partial A B hA.ok.1 hB.ok.2.1 hB.ok.2.2 inp room room2 hr hret hr2 hret2 htag discard
    alloc hal

/-- The hypotheses are met: "é€" from UTF-8 to CP1252. -/
example : Reversible utf8_entry ∧ Reversible cp1252_entry :=
  ⟨.inl (by simp [exactUni]), .inr ⟨⟨"CP1252", cp1252_entry, cp1252_from, cp1252_irr⟩,
    by simp [singleRows, sbRows], rfl, rfl⟩⟩
example : ∃ r r2, iconv (utf8_entry.conv cp1252_entry false) St.init (some [0xC3, 0xA9, 0xE2, 0x82, 0xAC])
    (some ⟨false, [], [0, 0]⟩) = .ok r ∧ r.ret = .ok 0 ∧ r.buf.out = [0xE9, 0x80] ∧
    iconv (utf8_entry.conv cp1252_entry false) r.st none (some ⟨false, [], [0]⟩) = .ok r2 ∧
    r2.ret = .ok 0 ∧ r2.buf.out = [] := ⟨_, _, by rfl, rfl, rfl, by rfl, rfl, rfl⟩
example : ∀ cs, utf8_entry.Text [0xC3, 0xA9, 0xE2, 0x82, 0xAC] cs → ∀ c ∈ cs, isTag c = false := by
  intro cs h
  have h1 : utf8_entry.Text [0xC3, 0xA9, 0xE2, 0x82, 0xAC] [0xE9, 0x20AC] :=
    (C19_utf8_decoding _ _).2 (by decide)
  obtain ⟨is1, h2⟩ := chars_of_text h rfl
  obtain ⟨is2, h3⟩ := chars_of_text h1 rfl
  obtain ⟨rfl, _⟩ := Chars.det h2 h3
  decide

/-- C30 fails for tag characters: converting "a", U+E0041 from UTF-8 to CP1252 returns 0, and the way
back gives "a". -/
theorem C30_tags_lost : ∃ r r2,
    iconv (utf8_entry.conv cp1252_entry false) St.init (some [0x61, 0xF3, 0xA0, 0x81, 0x81])
      (some ⟨false, [], [0, 0]⟩) = .ok r ∧ r.ret = .ok 0 ∧ r.buf.out = [0x61] ∧
    iconv (cp1252_entry.conv utf8_entry false) St.init (some [0x61])
      (some ⟨false, [], [0, 0]⟩) = .ok r2 ∧ r2.ret = .ok 0 ∧ r2.buf.out = [0x61] :=
  ⟨_, _, by rfl, rfl, rfl, by rfl, rfl, rfl⟩

/-- With the discard flag, invalid input is dropped and 0 is returned. -/
theorem C30_discard_lost : ∃ r,
    iconv (utf8_entry.conv cp1252_entry true) St.init (some [0x61, 0xFF, 0x62])
      (some ⟨false, [], [0, 0]⟩) = .ok r ∧ r.ret = .ok 0 ∧ r.buf.out = [0x61, 0x62] :=
  ⟨_, by rfl, rfl, rfl⟩

end Reiconv
