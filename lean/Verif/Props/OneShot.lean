import Verif.OneShot
import Verif.Props.Convert

/-!
# Properties of the one-shot functions (C08–C12, C18) and of resets (C03, C16, C17)
-/

namespace Reiconv

/-- The decoder of `A` has no byte order to switch: `ibyteorder` stays 0. This is so for all encodings
but UCS-2, UCS-4, UTF-16 and UTF-32. -/
def Entry.FixedOrder (A : Entry) : Prop := ∀ is, A.decOK.Inv is → is.bo = 0

/-- The encodings without any conversion state. -/
def Entry.Stateless (A : Entry) : Prop :=
  (∀ is, A.decOK.Inv is → is = IState.init) ∧ ∀ os, A.encOK.Inv os → os = 0

variable {A B : Entry} {discard : Bool} {s : St}

theorem clear_init {s : St} (h : s.is.bo = 0) : s.clear = St.init := by
  obtain ⟨⟨bo, st⟩, os⟩ := s
  simp only at h
  subst h; rfl

theorem fixed_clear (hA : A.FixedOrder) (h : Reach (A.conv B discard) s) : s.clear = St.init :=
  clear_init (hA _ (Entry.inv A B h).1)

/-! ## Flush (C03) -/

/-- The result of a flush that is safe. -/
theorem flush_result (A B : Entry) (discard : Bool) (s : St) (h : Reach (A.conv B discard) s) (room : List Byte)
    (hsafe : ∃ r, iconv (A.conv B discard) s none (some ⟨false, [], room⟩) = .ok r) :
    ∃ r, iconv (A.conv B discard) s none (some ⟨false, [], room⟩) = .ok r ∧
      r.buf.out.length + r.buf.room.length = room.length ∧
      ((∃ n, r.ret = .ok n ∧ finish (A.conv B discard) s = some (r.buf.out, n) ∧ r.st = s.clear) ∨
       (r.ret = .error .EILSEQ ∧ finish (A.conv B discard) s = none ∧ r.st = s) ∨
       (r.ret = .error .E2BIG ∧ r.buf.room.length < 64 ∧
        ∀ fo, finishExact (A.conv B discard) s = some fo → room.length < fo.length)) := by
  obtain ⟨hI, hO⟩ := Entry.inv A B h
  obtain ⟨r, e, irr, h1, h2⟩ := reset_spec (c := A.conv B discard) A.decOK B.encOK s
    ⟨false, [], room⟩ hI hO rfl hsafe
  have hout : r.buf.out = e := by simpa using h2.out_eq
  have hlen := h2.len_eq
  simp only at hlen
  refine ⟨r, h1, by rw [hout]; omega, ?_⟩
  have hres := h2.res
  cases hret : r.ret with
  | ok n =>
    rw [hret] at hres
    obtain ⟨h3, h4, h5⟩ := hres
    refine Or.inl ⟨n, rfl, ?_, h5⟩
    rw [hout, h3, h4, Nat.zero_add]
  | error x =>
    rw [hret] at hres
    cases x with
    | EILSEQ => exact Or.inr (Or.inl ⟨rfl, hres.1, hres.2.2⟩)
    | EINVAL => exact absurd hres id
    | ENOMEM => exact absurd hres id
    | E2BIG =>
      obtain ⟨hblk, hc1, hc2, hw⟩ := hres
      refine Or.inr (Or.inr ⟨rfl, finBlocked_lt B.encOK h2.inv_os hblk, ?_⟩)
      intro fo hfo
      have hfin := finishExact_finish hfo
      unfold FinBlocked at hblk
      cases hp : (pending (A.conv B discard) r.st).1 with
      | none =>
        rw [hp] at hblk
        obtain ⟨f, q, hf, g1, g2⟩ := hblk
        have := B.tight.reset_tight f _ _ _ hf h2.inv_os g1 g2
        have h7 := hc1 (B.enc.tail r.st.os) 0 (by unfold finish; rw [hp]; rfl)
        rw [hfin] at h7
        simp only [Option.some.injEq, Prod.mk.injEq] at h7
        rw [h7.1, List.length_append]
        omega
      | some wc =>
        rw [hp] at hblk
        rcases hw with hw | ⟨hw, he⟩
        · rw [hw] at hp; cases hp
        subst he
        rw [hw] at hp
        simp only [finishExact, hp, Option.map_eq_some_iff] at hfo
        obtain ⟨⟨bs, os⟩, h3, rfl⟩ := hfo
        replace h3 := Encoder.rep_full h3
        simp only [List.length_nil, Nat.add_zero] at hlen
        rcases hblk with ⟨q, g1, g2, g3⟩ | ⟨⟨q1, q2, q3⟩, q', g1, g2, g3, _⟩
        · have := B.tight.tight _ _ _ _ _ _ h2.inv_os g1 g2 g3 (by rw [hw]; exact h3)
          simp only [List.length_append]; omega
        · simp only at g2; subst g2
          have := full_of_iluni B.encOK h2.inv_os g3 g1
          rw [hw] at this
          rw [show (A.conv B discard).enc.full s.os wc = none from this] at h3; cases h3

/-- C03, partial: finishing with `reiconv_iconv(cd, NULL, NULL, &out, &outleft)` is safe if there is
room for at least one byte or the decoder never keeps a character back. On success the bytes written
are the ones the specification says; `E2BIG` is only reported when they do not fit (if all
characters are representable) and there are fewer than 64 bytes; if they do not fit it is reported.
Missing: a flush with no room at all and a pending character, see `C03_flush_overflow`. -/
theorem C03_flush_safe_partial (A B : Entry) (discard : Bool) (s : St)
    (h : Reach (A.conv B discard) s) (room : List Byte)
    (hroom : room ≠ [] ∨ A.dec.flushwc = none) :
    ∃ r, iconv (A.conv B discard) s none (some ⟨false, [], room⟩) = .ok r ∧
      r.buf.out.length + r.buf.room.length = room.length ∧
      ((∃ n, r.ret = .ok n ∧ finish (A.conv B discard) s = some (r.buf.out, n) ∧ r.st = s.clear) ∨
       (r.ret = .error .EILSEQ ∧ finish (A.conv B discard) s = none ∧ r.st = s) ∨
       (r.ret = .error .E2BIG ∧ r.buf.room.length < 64 ∧
        ∀ fo, finishExact (A.conv B discard) s = some fo → room.length < fo.length)) := by
  obtain ⟨hI, hO⟩ := Entry.inv A B h
  refine flush_result A B discard s h room (reset_safe A.decOK B.encOK s _ hI hO rfl ?_)
  rcases hroom with hr | hr
  · left
    have := List.length_pos_iff.mpr hr
    have := B.encOK.minRoom_le
    simp only; omega
  · right; intro wc hwc
    have : (pending (A.conv B discard) s).1 = none := by
      unfold pending; rw [show (A.conv B discard).dec.flushwc = none from hr]
    rw [this] at hwc; cases hwc

/-! ## Whole conversions -/

/-- The conversion of a whole text from a new descriptor, as `reiconv_result_size` sees it. -/
theorem size_whole (A B : Entry) (discard : Bool) (inp : List Byte) :
    ∃ sz s1, resultSize (A.conv B discard) St.init inp = .ok (sz, s1) ∧
      A.decOK.Inv s1.is ∧ B.encOK.Inv s1.os ∧
      ((∃ n out irr, sz = .ok n ∧ Whole A.atom (A.conv B discard) St.init inp out irr ∧
          n = out.length ∧ (A.FixedOrder → s1 = St.init)) ∨
       (sz = .error .EILSEQ ∧ ∀ out irr, ¬ Whole A.atom (A.conv B discard) St.init inp out irr)) := by
  obtain ⟨⟨sz, s1⟩, h1, hI1, hO1, h2⟩ := resultSize_spec (c := A.conv B discard) A.decOK B.encOK
    St.init inp A.decOK.inv_init B.encOK.inv_init
  refine ⟨sz, s1, h1, hI1, hO1, ?_⟩
  obtain ⟨o, i, f, hrun⟩ := runs_total (ec := encChar B.enc discard) (discard := discard) A.decOK _
    St.init inp A.decOK.inv_init (Nat.le_refl _)
  have hrun' : Runs A.atom (A.conv B discard) St.init inp o i f := hrun
  have h3 := h2 o i f hrun'
  have hno : ∀ {x : Final}, f = x → (∀ s', x = .done s' → finish (A.conv B discard) s' = none) →
      ∀ out irr, ¬ Whole A.atom (A.conv B discard) St.init inp out irr := by
    rintro x rfl hx out irr ⟨o', i', s', fo, fi, g1, g2, _, _⟩
    obtain ⟨_, _, h⟩ := runs_det hrun' g1
    rw [hx s' h] at g2; cases g2
  cases f with
  | done s' =>
    simp only [SizePost, Prod.mk.injEq] at h3
    obtain ⟨h4, h5⟩ := h3
    cases hf : finish (A.conv B discard) s' with
    | none =>
      rw [hf] at h4
      exact Or.inr ⟨h4, hno rfl (by rintro _ ⟨⟩; exact hf)⟩
    | some x =>
      obtain ⟨fo, fi⟩ := x
      rw [hf] at h4
      refine Or.inl ⟨_, o ++ fo, i + fi, h4, ⟨o, i, s', fo, fi, hrun', hf, rfl, rfl⟩, by simp, ?_⟩
      intro hA
      have := (runs_inv (c := A.conv B discard) A.decOK B.encOK hrun' A.decOK.inv_init
        B.encOK.inv_init).1 s' rfl
      rw [h5]; exact clear_init (hA _ this.1)
  | einval s' r => exact Or.inr ⟨h3, hno rfl (by rintro _ ⟨⟩)⟩
  | eilseq => exact Or.inr ⟨h3, hno rfl (by rintro _ ⟨⟩)⟩

theorem whole_det {c : Conv} {atom} {inp o1 o2 : List Byte} {i1 i2 : Nat}
    (h1 : Whole atom c s inp o1 i1) (h2 : Whole atom c s inp o2 i2) : o1 = o2 ∧ i1 = i2 := by
  obtain ⟨a, b, s1, fo, fi, h1, h3, rfl, rfl⟩ := h1
  obtain ⟨a', b', s2, fo', fi', h2, h4, rfl, rfl⟩ := h2
  obtain ⟨rfl, rfl, h⟩ := runs_det h1 h2
  cases h
  rw [h3] at h4; cases h4
  exact ⟨rfl, rfl⟩

/-- The result of a conversion into a buffer that is safe. -/
theorem static_result (A B : Entry) (discard : Bool) (s : St) (hI : A.decOK.Inv s.is)
    (hO : B.encOK.Inv s.os) (inp room : List Byte) {out irr}
    (hw : Whole A.atom (A.conv B discard) s inp out irr)
    (hsafe : ∃ x, convertStatic (A.conv B discard) s inp ⟨false, [], room⟩ = .ok x) :
    ∃ ret s2 b, convertStatic (A.conv B discard) s inp ⟨false, [], room⟩ = .ok (ret, s2, b) ∧
      b.out.length + b.room.length = room.length ∧
      ((ret = .ok () ∧ b.out = out ∧ ((∃ owed, B.encOK.Covers owed) → b.room = room.drop out.length) ∧
          (A.FixedOrder → s2 = St.init)) ∨
       (ret = .error .E2BIG ∧ b.room.length < 64 ∧ (∃ rest, out = b.out ++ rest) ∧
          ∀ out', Faithful A.atom (A.conv B discard) s inp out' → room.length < out.length)) := by
  obtain ⟨o, i, s', fo, fi, hrun, hfin, rfl, rfl⟩ := hw
  obtain ⟨⟨ret, s2, b⟩, e, hx, hp⟩ := convertStatic_spec (c := A.conv B discard) A.decOK B.encOK
    s inp ⟨false, [], room⟩ hI hO rfl hsafe
  have hout : b.out = e := by simpa using hp.out_eq
  have hlen := hp.len_eq
  simp only at hlen
  refine ⟨ret, s2, b, hx, by rw [hout]; omega, ?_⟩
  have hres := hp.res
  simp only at hres
  cases ret with
  | ok u =>
    obtain ⟨o', i', s'', fo', fi', g1, g2, g3, g4⟩ := hres
    obtain ⟨rfl, rfl, rfl⟩ := ends_det (Or.inl hrun) g1
    rw [hfin] at g2; cases g2
    refine Or.inl ⟨rfl, hout.trans g3, ?_, ?_⟩
    · rintro ⟨owed, hc⟩
      have := hp.clean owed hc (by simp) room (.refl _ _)
      rw [← g3]; exact this.zero (by rw [g4]; exact hc.init)
    · intro hA
      have := (ends_inv (c := A.conv B discard) A.decOK B.encOK hI hO g1).1
      rw [g4]; exact clear_init (hA _ this)
  | error q =>
    cases q with
    | EILSEQ =>
      exfalso
      obtain ⟨j, g1 | ⟨s'', g1, g2⟩⟩ := hres
      · obtain ⟨_, _, h⟩ := runs_det g1 hrun; cases h
      · obtain ⟨rfl, rfl, rfl⟩ := ends_det (Or.inl hrun) g1
        rw [hfin] at g2; cases g2
    | EINVAL => exact absurd hres id
    | ENOMEM => exact absurd hres id
    | E2BIG =>
      have h1 := static_E2BIG hp rfl
      refine Or.inr ⟨rfl, h1.1, ?_, ?_⟩
      · obtain ⟨rest, hrest⟩ := h1.2 o i s' fo fi (Or.inl hrun) hfin
        exact ⟨rest, by rw [hout]; exact hrest⟩
      · rintro out' ⟨o', i', s'', fo', g1, g2, rfl⟩
        have g3 := exact_runs g1 s'' rfl
        obtain ⟨rfl, _, h⟩ := runs_det hrun g3
        cases h
        have := finishExact_finish g2
        rw [hfin] at this; cases this
        refine Nat.lt_of_not_le fun hle => ?_
        have := (static_exact B.tight hp g1 g2 hle).1
        cases this

/-- `reiconv_convert_static_size` with room for the whole conversion. -/
theorem static_whole (A B : Entry) (discard : Bool) (s : St) (hI : A.decOK.Inv s.is)
    (hO : B.encOK.Inv s.os) (inp room : List Byte) {out irr}
    (hw : Whole A.atom (A.conv B discard) s inp out irr)
    (hroom : out.length ≤ room.length ∨ A.dec.flushwc = none) :
    ∃ ret s2 b, convertStatic (A.conv B discard) s inp ⟨false, [], room⟩ = .ok (ret, s2, b) ∧
      b.out.length + b.room.length = room.length ∧
      ((ret = .ok () ∧ b.out = out ∧ ((∃ owed, B.encOK.Covers owed) → b.room = room.drop out.length) ∧
          (A.FixedOrder → s2 = St.init)) ∨
       (ret = .error .E2BIG ∧ b.room.length < 64 ∧ (∃ rest, out = b.out ++ rest) ∧
          ∀ out', Faithful A.atom (A.conv B discard) s inp out' → room.length < out.length)) := by
  refine static_result A B discard s hI hO inp room hw ?_
  obtain ⟨o, i, s', fo, fi, hrun, hfin, rfl, rfl⟩ := hw
  obtain ⟨x, e, hx, _⟩ := convertStatic_spec' (c := A.conv B discard) A.decOK B.encOK
    B.tight s inp ⟨false, [], room⟩ hI hO rfl (by
      intro o' i' s'' fo' fi' hends hfin'
      obtain ⟨rfl, rfl, rfl⟩ := ends_det (Or.inl hrun) hends
      rw [hfin] at hfin'; cases hfin'
      refine hroom.imp_left fun h => ?_
      simpa using h)
  exact ⟨x, hx⟩

/-- If `reiconv_convert_static_size` succeeds, it has written the whole conversion, whatever the size
of the buffer. -/
theorem static_ok_inv {c : Conv} (hd : DecOK c.dec c.unit) (he : EncOK c.enc) {s s2 : St} {inp}
    {b0 b : Buf} (hI : hd.Inv s.is) (hO : he.Inv s.os) (hn : b0.null = false)
    (hx : convertStatic c s inp b0 = .ok (.ok (), s2, b)) :
    ∃ o i s' fo fi, Ends hd.atom c s inp o i s' ∧ finish c s' = some (fo, fi) ∧
      b.out = b0.out ++ (o ++ fo) ∧ s2 = s'.clear ∧
      b.room.length + (o ++ fo).length = b0.room.length ∧
      ((∃ owed, he.Covers owed) → b.room = b0.room.drop (o ++ fo).length) := by
  obtain ⟨x, e, h1, h2⟩ := convertStatic_spec hd he s inp b0 hI hO hn ⟨_, hx⟩
  rw [hx] at h1; cases h1
  obtain ⟨o, i, s', fo, fi, g1, g2, rfl, g4⟩ := h2.res
  exact ⟨o, i, s', fo, fi, g1, g2, h2.out_eq, g4, h2.len_eq, fun ⟨owed, hc⟩ =>
    (h2.clean owed hc (by simp) b0.room (.refl _ _)).zero (by rw [show s2 = s'.clear from g4]; exact hc.init)⟩

theorem static_ok_whole (A B : Entry) (discard : Bool) {s s2 : St} {inp room out : List Byte} {irr}
    {b : Buf} (hI : A.decOK.Inv s.is) (hO : B.encOK.Inv s.os)
    (hw : Whole A.atom (A.conv B discard) s inp out irr)
    (hx : convertStatic (A.conv B discard) s inp ⟨false, [], room⟩ = .ok (.ok (), s2, b)) :
    b.out = out ∧ b.room.length + out.length = room.length := by
  obtain ⟨o, i, s', fo, fi, hrun, hfin, rfl, rfl⟩ := hw
  obtain ⟨o', i', s'', fo', fi', g1, g2, g3, _, g4, _⟩ :=
    static_ok_inv (c := A.conv B discard) A.decOK B.encOK hI hO rfl hx
  obtain ⟨rfl, rfl, rfl⟩ := ends_det (Or.inl hrun) g1
  rw [hfin] at g2; cases g2
  exact ⟨by simpa using g3, g4⟩

/-! ## C08 -/

/-- C08, partial. For source encodings without byte order marks: if `reiconv_result_size` returns `n`
on a new descriptor, the descriptor is like new afterwards; with 64 bytes more than `n`
`reiconv_convert_static_size` succeeds and writes `n` bytes; with exactly `n` bytes (or any number
above) it succeeds and writes `n` bytes provided every character is representable; with fewer than
`n` bytes it never succeeds. Missing: texts with dropped or replaced characters and fewer than 64
spare bytes (false, `C08_exact_buffer_too_small`), and UTF-16, UTF-32, UCS-2, UCS-4 (false,
`C09_wrong_text`). -/
theorem C08_result_size_partial (A B : Entry) (discard : Bool) (hA : A.FixedOrder)
    (inp : List Byte) {n s1}
    (h : resultSize (A.conv B discard) St.init inp = .ok (.ok n, s1)) :
    s1 = St.init ∧
    (∀ room : List Byte, n + 64 ≤ room.length →
      ∃ s2 b, convertStatic (A.conv B discard) s1 inp ⟨false, [], room⟩ = .ok (.ok (), s2, b) ∧
        b.out.length = n) ∧
    (∀ room : List Byte, n ≤ room.length → (∃ out, Faithful A.atom (A.conv B discard) St.init inp out) →
      ∃ s2 b, convertStatic (A.conv B discard) s1 inp ⟨false, [], room⟩ = .ok (.ok (), s2, b) ∧
        b.out.length = n) ∧
    (∀ room : List Byte, room.length < n →
      ¬ ∃ s2 b, convertStatic (A.conv B discard) s1 inp ⟨false, [], room⟩ = .ok (.ok (), s2, b)) := by
  obtain ⟨sz, s1', h1, hI1, hO1, h2⟩ := size_whole A B discard inp
  rw [h] at h1; cases h1
  rcases h2 with ⟨n', out, irr, h3, hw, rfl, h4⟩ | ⟨h3, _⟩
  · cases h3
    obtain rfl := h4 hA
    refine ⟨rfl, ?_, ?_, ?_⟩
    · intro room hroom
      obtain ⟨ret, s2, b, hx, hl, ⟨rfl, h5, _⟩ | ⟨_, h5, ⟨rest, h6⟩, _⟩⟩ :=
        static_whole A B discard St.init hI1 hO1 inp room hw (Or.inl (by omega))
      · exact ⟨s2, b, hx, by rw [h5]⟩
      · exfalso
        rw [h6, List.length_append] at hroom
        omega
    · rintro room hroom ⟨out', hf⟩
      obtain ⟨ret, s2, b, hx, hl, ⟨rfl, h5, _⟩ | ⟨_, _, _, h5⟩⟩ :=
        static_whole A B discard St.init hI1 hO1 inp room hw (Or.inl hroom)
      · exact ⟨s2, b, hx, by rw [h5]⟩
      · have := h5 out' hf; omega
    · rintro room hroom ⟨s2, b, hx⟩
      have := (static_ok_whole A B discard hI1 hO1 hw hx).2
      omega
  · cases h3

/-! ## C09 -/

/-- C09, partial. For source encodings without byte order marks: on a new descriptor `reiconv_convert`
returns; if it returns 0, length and contents are the conversion of the whole input followed by the
flush bytes; if it returns -1 there is no buffer. It returns 0 if every character is representable,
and `EILSEQ` if the input has no conversion. (`alloc n` is the block `malloc` gives.) Missing: UTF-16,
UTF-32, UCS-2, UCS-4, for which it is false (`C09_wrong_text`). That a text with dropped characters
can fail is `C08_exact_buffer_too_small`. -/
theorem C09_convert_whole_partial (A B : Entry) (discard : Bool) (hA : A.FixedOrder)
    (inp : List Byte) (alloc : Nat → List Byte) (hal : ∀ n, (alloc n).length = n) :
    ∃ r, convert (A.conv B discard) St.init inp true true (fun n => some (alloc n)) = .ok r ∧
      ((r.ret = .ok () ∧ ∃ out irr, Whole A.atom (A.conv B discard) St.init inp out irr ∧
          r.outLen = some out.length ∧ r.data = some out) ∨
       ((∃ e, r.ret = .error e) ∧ r.data = none)) ∧
      ((∃ out, Faithful A.atom (A.conv B discard) St.init inp out) → r.ret = .ok ()) ∧
      ((∀ out irr, ¬ Whole A.atom (A.conv B discard) St.init inp out irr) →
        r.ret = .error .EILSEQ) := by
  obtain ⟨sz, s1, h1, hI1, hO1, ⟨n, out, irr, rfl, hw, rfl, h4⟩ | ⟨rfl, hno⟩⟩ :=
    size_whole A B discard inp
  · obtain rfl := h4 hA
    obtain ⟨ret, s2, b, hx, hl, h5⟩ := static_whole A B discard St.init hI1 hO1 inp
      (alloc out.length) hw (Or.inl (by rw [hal]; exact Nat.le_refl _))
    rw [hal] at hl h5
    rcases h5 with ⟨rfl, h5, _, _⟩ | ⟨rfl, h5, _, h6⟩
    · have hroom : b.room = [] := by
        apply List.eq_nil_of_length_eq_zero
        rw [h5] at hl; omega
      have hn : b.null = false := by
        obtain ⟨y, e, hy, hp⟩ := convertStatic_spec (c := A.conv B discard) A.decOK B.encOK St.init
          inp ⟨false, [], alloc out.length⟩ hI1 hO1 rfl ⟨_, hx⟩
        rw [hx] at hy; cases hy
        exact hp.null_eq
      refine ⟨⟨.ok (), s2, some out.length, some out⟩, ?_,
        Or.inl ⟨rfl, out, irr, hw, rfl, rfl⟩, fun _ => rfl, fun h => absurd hw (h _ _)⟩
      simp only [convert, h1, Outcome.bind_ok, Bool.not_true, Bool.false_eq_true, if_false, if_true,
        hx, hn, h5, hroom, List.append_nil]
    · refine ⟨⟨.error .E2BIG, s2, some out.length, none⟩, ?_, Or.inr ⟨⟨_, rfl⟩, rfl⟩, ?_,
        fun h => absurd hw (h _ _)⟩
      · simp only [convert, h1, Outcome.bind_ok, Bool.not_true, Bool.false_eq_true, if_false, if_true,
          hx]
      · rintro ⟨out', hf⟩
        have := h6 out' hf
        omega
  · refine ⟨⟨.error .EILSEQ, s1, none, none⟩, ?_, Or.inr ⟨⟨_, rfl⟩, rfl⟩, ?_, fun _ => rfl⟩
    · simp only [convert, h1, Outcome.bind_ok]
    · rintro ⟨out', o', i', s'', fo', g1, g2, rfl⟩
      exact absurd ⟨o', i', s'', fo', 0, exact_runs g1 s'' rfl, finishExact_finish g2, rfl, rfl⟩
        (hno (o' ++ fo') (i' + 0))

/-! ## C10, C11 -/

/-- C10, partial. If `reiconv_convert_static_size` succeeds, on any descriptor and with any buffer, the
bytes after the result are the bytes that were there before. Missing: the target encodings UTF-16
and UTF-7, whose encoders store bytes before they reject a character
(`C10_rest_overwritten`). The encoders of some others do this too, but only bytes that are part of the result. -/
theorem C10_rest_untouched_partial (A B : Entry) (discard : Bool) (s : St)
    (h : Reach (A.conv B discard) s) (hB : ∃ owed, B.encOK.Covers owed) (inp room : List Byte) {s2 b}
    (hx : convertStatic (A.conv B discard) s inp ⟨false, [], room⟩ = .ok (.ok (), s2, b)) :
    b.out.length ≤ room.length ∧ b.room = room.drop b.out.length := by
  obtain ⟨hI, hO⟩ := Entry.inv A B h
  obtain ⟨o, i, s', fo, fi, g1, g2, g3, _, g4, g5⟩ :=
    static_ok_inv (c := A.conv B discard) A.decOK B.encOK hI hO rfl hx
  have : b.out = o ++ fo := by simpa using g3
  rw [this]
  exact ⟨by simp only at g4; omega, g5 hB⟩

/-- C11, partial. If the result of a conversion is larger than the buffer,
`reiconv_convert_static_size` does not succeed; it returns with `E2BIG` if the source encoding has no
characters that are kept back. Missing: source encodings that keep characters back, when the buffer
is exactly full before the last one (`C03_flush_overflow`). -/
theorem C11_too_small_partial (A B : Entry) (discard : Bool) (s : St)
    (h : Reach (A.conv B discard) s) (inp room : List Byte) {out irr}
    (hw : Whole A.atom (A.conv B discard) s inp out irr) (hroom : room.length < out.length) :
    (∀ s2 b, convertStatic (A.conv B discard) s inp ⟨false, [], room⟩ ≠ .ok (.ok (), s2, b)) ∧
    (A.dec.flushwc = none → ∃ s2 b,
      convertStatic (A.conv B discard) s inp ⟨false, [], room⟩ = .ok (.error .E2BIG, s2, b) ∧
      b.out.length + b.room.length = room.length) := by
  obtain ⟨hI, hO⟩ := Entry.inv A B h
  have hno : ∀ s2 b, convertStatic (A.conv B discard) s inp ⟨false, [], room⟩ ≠
      .ok (.ok (), s2, b) := by
    intro s2 b hx
    have := (static_ok_whole A B discard hI hO hw hx).2
    omega
  refine ⟨hno, fun hf => ?_⟩
  obtain ⟨ret, s2, b, hx, hl, ⟨rfl, _⟩ | ⟨rfl, _⟩⟩ := static_whole A B discard s hI hO inp room hw
    (Or.inr hf)
  · exact absurd hx (hno _ _)
  · exact ⟨s2, b, hx, hl⟩

/-! ## C12, C18: invalid and truncated input -/

/-- `reiconv_convert` succeeds only if `reiconv_result_size` does. -/
theorem convert_size {c : Conv} {s : St} {inp dp lp al r} (h : convert c s inp dp lp al = .ok r)
    (hr : r.ret = .ok ()) : ∃ n s1, resultSize c s inp = .ok (.ok n, s1) := by
  unfold convert at h
  obtain ⟨⟨sz, s1⟩, h1, h⟩ := bind_ok_inv h
  cases sz with
  | ok n => exact ⟨n, s1, h1⟩
  | error e => cases h; cases hr

/-- C12. Without the discard flag `reiconv_convert` and `reiconv_result_size` succeed on a descriptor
in any state only if the whole input is a sequence of valid items of the source encoding; otherwise
`reiconv_result_size` returns `EILSEQ` and so does `reiconv_convert`. -/
theorem C12_strict_rejects_invalid (A B : Entry) (s : St) (h : Reach (A.conv B false) s)
    (inp : List Byte) :
    (∀ n s1, resultSize (A.conv B false) s inp = .ok (.ok n, s1) → Valid A.atom s.is inp) ∧
    (∀ dp lp al r, convert (A.conv B false) s inp dp lp al = .ok r → r.ret = .ok () →
      Valid A.atom s.is inp) ∧
    (¬ Valid A.atom s.is inp → ∃ s1, resultSize (A.conv B false) s inp = .ok (.error .EILSEQ, s1) ∧
      ∀ dp lp al, convert (A.conv B false) s inp dp lp al = .ok ⟨.error .EILSEQ, s1, none, none⟩) := by
  obtain ⟨hI, hO⟩ := Entry.inv A B h
  obtain ⟨⟨sz, s1⟩, h1, _, _, h2⟩ := resultSize_spec (c := A.conv B false) A.decOK B.encOK s inp hI hO
  obtain ⟨o, i, f, hrun⟩ := runs_total (ec := encChar B.enc false) (discard := false) A.decOK _
    s inp hI (Nat.le_refl _)
  have h3 := h2 o i f hrun
  have key : Valid A.atom s.is inp ∨ sz = .error .EILSEQ := by
    cases f with
    | done s' => exact Or.inl ((runs_valid hrun).1 s' rfl)
    | einval s' r => exact Or.inr h3
    | eilseq => exact Or.inr h3
  have hsz : ∀ n s1, resultSize (A.conv B false) s inp = .ok (.ok n, s1) → Valid A.atom s.is inp := by
    intro n s1' hx
    rw [h1] at hx; cases hx
    rcases key with h | h
    · exact h
    · cases h
  refine ⟨hsz, ?_, ?_⟩
  · intro dp lp al r hr hret
    obtain ⟨n, s1, hn⟩ := convert_size hr hret
    exact hsz n s1 hn
  · intro hv
    rcases key with h | rfl
    · exact absurd h hv
    · exact ⟨s1, h1, fun dp lp al => by simp only [convert, h1, Outcome.bind_ok]⟩

/-- C18, partial. If the input ends inside a sequence, `reiconv_result_size` and `reiconv_convert`
return an error. Missing: `reiconv_convert_static_size` does not, see
`C18_static_accepts_truncated`. -/
theorem C18_truncated_partial (A B : Entry) (discard : Bool) (s : St)
    (h : Reach (A.conv B discard) s) (inp : List Byte) (ht : Truncated A.atom s.is inp) :
    ∃ s1, resultSize (A.conv B discard) s inp = .ok (.error .EILSEQ, s1) ∧
      ∀ dp lp al, convert (A.conv B discard) s inp dp lp al = .ok ⟨.error .EILSEQ, s1, none, none⟩ := by
  obtain ⟨hI, hO⟩ := Entry.inv A B h
  obtain ⟨⟨sz, s1⟩, h1, _, _, h2⟩ := resultSize_spec (c := A.conv B discard) A.decOK B.encOK s inp
    hI hO
  obtain ⟨o, i, f, hrun⟩ := runs_total (ec := encChar B.enc discard) (discard := discard) A.decOK _
    s inp hI (Nat.le_refl _)
  have h3 := h2 o i f hrun
  have : sz = .error .EILSEQ := by
    cases f with
    | done s' => exact absurd rfl (runs_truncated ht hrun s')
    | einval s' r => exact h3
    | eilseq => exact h3
  subst this
  exact ⟨s1, h1, fun dp lp al => by simp only [convert, h1, Outcome.bind_ok]⟩

/-! ## C13, C14, C15: the discard flag and the return value -/

/-- C13, partial. With the discard flag no conversion and no flush fails with `EILSEQ`;
`reiconv_result_size` fails only if the input ends inside a sequence; `reiconv_convert_static_size`
never fails with `EILSEQ`. Missing: `reiconv_convert` can fail with `E2BIG`
(`C08_exact_buffer_too_small`). -/
theorem C13_discard_partial (A B : Entry) (s : St) (h : Reach (A.conv B true) s) (inp : List Byte) :
    (∀ room r, iconv (A.conv B true) s (some inp) (some ⟨false, [], room⟩) = .ok r →
      r.ret ≠ .error .EILSEQ) ∧
    (∀ room r, iconv (A.conv B true) s none (some ⟨false, [], room⟩) = .ok r →
      r.ret ≠ .error .EILSEQ) ∧
    (∀ e s1, resultSize (A.conv B true) s inp = .ok (.error e, s1) →
      ∃ o i s' rest, Runs A.atom (A.conv B true) s inp o i (.einval s' rest) ∧ rest ≠ [] ∧
        A.atom s'.is rest = .more) ∧
    (∀ room x, convertStatic (A.conv B true) s inp ⟨false, [], room⟩ = .ok x →
      x.1 ≠ .error .EILSEQ) := by
  obtain ⟨hI, hO⟩ := Entry.inv A B h
  refine ⟨?_, ?_, ?_, ?_⟩
  · intro room r hr hret
    rcases C04_return_contract A B true s h inp room hr with
      ⟨n, h1, _⟩ | ⟨h1, _⟩ | ⟨h1, _⟩ | ⟨h1, _, _, n, h4⟩
    · rw [h1] at hret; cases hret
    · rw [h1] at hret; cases hret
    · rw [h1] at hret; cases hret
    · exact runs_discard h4 rfl
  · intro room r hr hret
    obtain ⟨r', e, irr, h1, h2⟩ := reset_spec (c := A.conv B true) A.decOK B.encOK s
      ⟨false, [], room⟩ hI hO rfl ⟨_, hr⟩
    rw [show loopReset (A.conv B true) s ⟨false, [], room⟩ = .ok r from hr] at h1; cases h1
    have := h2.res
    rw [hret] at this
    exact finish_discard rfl s this.1
  · intro e s1 hx
    obtain ⟨y, h1, _, _, h2⟩ := resultSize_spec (c := A.conv B true) A.decOK B.encOK s inp hI hO
    rw [hx] at h1; cases h1
    obtain ⟨o, i, f, hrun⟩ := runs_total (ec := encChar B.enc true) (discard := true) A.decOK _
      s inp hI (Nat.le_refl _)
    have h3 := h2 o i f hrun
    have hrun' : Runs A.atom (A.conv B true) s inp o i f := hrun
    cases f with
    | done s' =>
      exfalso
      simp only [SizePost, Prod.mk.injEq] at h3
      cases hf : finish (A.conv B true) s' with
      | none => exact finish_discard rfl s' hf
      | some x => rw [hf] at h3; cases h3.1
    | einval s' r =>
      have := (runs_inv (c := A.conv B true) A.decOK B.encOK hrun' hI hO).2 s' r rfl
      exact ⟨o, i, s', r, hrun', this.2.2⟩
    | eilseq => exact absurd rfl (runs_discard hrun)
  · intro room x hx hret
    obtain ⟨y, e, h1, h2⟩ := convertStatic_spec (c := A.conv B true) A.decOK B.encOK s inp
      ⟨false, [], room⟩ hI hO rfl ⟨_, hx⟩
    rw [hx] at h1; cases h1
    have := h2.res
    rw [hret] at this
    obtain ⟨j, g1 | ⟨s'', _, g2⟩⟩ := this
    · exact runs_discard g1 rfl
    · exact finish_discard rfl s'' g2

theorem outcountOk_irr {oc : Int} {os : Nat} {b : Buf} {i j : Nat} {os' : Nat} {b' : Buf}
    (h : outcountOk oc os b i = .ok (.done j, os', b')) : j = i := by
  unfold outcountOk at h
  split at h
  · cases h
  · obtain ⟨b'', _, h⟩ := bind_ok_inv h
    cases h; rfl

/-- A character written exactly is written in the same way with the discard flag. -/
theorem putChar_exact {c c' : Conv} (henc : c'.enc = c.enc) (hdis : c.discard = false) {os wc : Nat}
    {b b' : Buf} {os' : Nat} (h : putChar c os wc b = .ok (.done 0, os', b')) :
    putChar c' os wc b = .ok (.done 0, os', b') := by
  unfold putChar at h ⊢
  have hcall : ∀ os wc b, callWctomb c' os wc b = callWctomb c os wc b := by
    intro os wc b; unfold callWctomb; rw [henc]
  obtain ⟨⟨oc, os1, b1⟩, h1, h⟩ := bind_ok_inv h
  simp only [hcall, h1, Outcome.bind_ok] at h ⊢
  split at h
  · next hc => rw [if_pos hc]; exact h
  · next hc =>
    rw [if_neg hc]
    split at h
    · next ht => rw [if_pos ht]; exact h
    · exfalso
      rw [hdis, if_neg (by simp)] at h
      obtain ⟨⟨oc2, os2, b2⟩, h2, h⟩ := bind_ok_inv h
      simp only at h
      split at h
      · have := outcountOk_irr h; omega
      · cases h

theorem loop_mono {c : Conv} (hd : DecOK c.dec c.unit) (he : EncOK c.enc) : ∀ (fuel : Nat) (s : St)
    (inp : List Byte) (b : Buf) (res n : Nat) (r : CallRes), hd.Inv s.is → he.Inv s.os →
    loopConvert c fuel s inp b res = .ok r → r.ret = .ok n → res ≤ n := by
  intro fuel
  induction fuel with
  | zero => intro s inp b res n r _ _ h; cases h
  | succ fuel ih =>
    intro s inp b res n r hI hO h hret
    by_cases hne : inp = []
    · subst hne; rw [loop_nil] at h; cases h; cases hret; exact Nat.le_refl _
    obtain ⟨ret, is', hmb, hbatch⟩ := hd.batch s.is inp hI hne
    obtain ⟨hI', hbc, hbi, hbt⟩ := batch_ok hd hbatch hI hne
    cases ret with
    | ilseq k =>
      rw [loop_ilseq hne hmb (hbi k rfl).1] at h
      split at h
      · exact ih ⟨_, _⟩ _ _ _ _ _ hI' hO h hret
      · cases h; cases hret
    | toofew k =>
      rw [loop_toofew hne hmb (hbt k rfl).1] at h
      split at h
      · cases h; cases hret
      · exact ih ⟨_, _⟩ _ _ _ _ _ hI' hO h hret
    | char wc m =>
      rw [loop_char hne hmb (hbc wc m rfl).1] at h
      split at h
      · cases h; cases hret
      · obtain ⟨⟨p, os, b'⟩, h1, h⟩ := bind_ok_inv h
        have hO' := putChar_inv he hO h1
        cases p with
        | err e => cases h; cases hret
        | done i => have := ih ⟨_, _⟩ _ _ _ _ _ hI' hO' h hret; omega

theorem loop_exact {c c' : Conv} (hd : DecOK c.dec c.unit) (he : EncOK c.enc)
    (hdec : c'.dec = c.dec) (henc : c'.enc = c.enc) (hdis : c.discard = false) :
    ∀ (fuel : Nat) (s : St) (inp : List Byte) (b : Buf) (res : Nat) (r : CallRes), hd.Inv s.is →
    he.Inv s.os → loopConvert c fuel s inp b res = .ok r → r.ret = .ok res →
    loopConvert c' fuel s inp b res = .ok r := by
  intro fuel
  induction fuel with
  | zero => intro s inp b res r _ _ h; cases h
  | succ fuel ih =>
    intro s inp b res r hI hO h hret
    by_cases hne : inp = []
    · subst hne; rw [loop_nil] at h ⊢; exact h
    obtain ⟨ret, is', hmb, hbatch⟩ := hd.batch s.is inp hI hne
    obtain ⟨hI', hbc, hbi, hbt⟩ := batch_ok hd hbatch hI hne
    have hmb' : c'.dec.mbtowc s.is inp = .ok (ret, is') := by rw [hdec]; exact hmb
    cases ret with
    | ilseq k =>
      rw [loop_ilseq hne hmb (hbi k rfl).1, hdis, if_neg (by simp)] at h
      cases h; cases hret
    | toofew k =>
      rw [loop_toofew hne hmb (hbt k rfl).1] at h
      rw [loop_toofew hne hmb' (hbt k rfl).1]
      split at h
      · cases h; cases hret
      · next hc => rw [if_neg hc]; exact ih ⟨_, _⟩ _ _ _ _ hI' hO h hret
    | char wc m =>
      rw [loop_char hne hmb (hbc wc m rfl).1] at h
      rw [loop_char hne hmb' (hbc wc m rfl).1]
      split at h
      · cases h; cases hret
      · next hc =>
        rw [if_neg hc]
        obtain ⟨⟨p, os, b'⟩, h1, h⟩ := bind_ok_inv h
        have hO' := putChar_inv he hO h1
        cases p with
        | err e => cases h; cases hret
        | done i =>
          have hle := loop_mono hd he _ ⟨_, _⟩ _ _ _ _ _ hI' hO' h hret
          obtain rfl : i = 0 := by omega
          rw [putChar_exact henc hdis h1]
          simp only [Outcome.bind_ok]
          exact ih ⟨_, _⟩ _ _ _ _ hI' hO' h hret

/-- C14. If a conversion call succeeds without the discard flag and replaces no character (it returns
0), then the same call with the flag gives the same result: the same bytes in the same places, the
same return value, the same state. The same holds for a flush. -/
theorem C14_discard_agrees (A B : Entry) (s : St) (h : Reach (A.conv B false) s)
    (inp : Option (List Byte)) (out : Option Buf) {r}
    (hr : iconv (A.conv B false) s inp out = .ok r) (hret : r.ret = .ok 0) :
    iconv (A.conv B true) s inp out = .ok r := by
  obtain ⟨hI, hO⟩ := Entry.inv A B h
  unfold iconv at hr ⊢
  split at hr
  · exact hr
  · unfold loopReset at hr ⊢
    split at hr
    · next hn => rw [if_pos hn]; exact hr
    · next hn =>
      rw [if_neg hn]
      have hout : ∀ s b res, resetOut (A.conv B true) s b res = resetOut (A.conv B false) s b res :=
        fun _ _ _ => rfl
      have hfl : (A.conv B true).dec.flushwc = (A.conv B false).dec.flushwc := rfl
      rw [hfl]
      split at hr
      · exact hr
      · simp only at hr ⊢
        split at hr
        · exact hr
        · obtain ⟨⟨p, os, b'⟩, h1, hr⟩ := bind_ok_inv hr
          cases p with
          | err e => cases hr; cases hret
          | done i =>
            have : i = 0 := by
              simp only at hr
              unfold resetOut at hr
              split at hr
              · cases hr; cases hret; rfl
              · obtain ⟨x, _, hr⟩ := bind_ok_inv hr
                obtain ⟨b'', _, hr⟩ := bind_ok_inv hr
                simp only at hr
                split at hr
                · cases hr; cases hret
                · obtain ⟨b3, _, hr⟩ := bind_ok_inv hr
                  cases hr; cases hret; rfl
            subst this
            rw [putChar_exact (c := A.conv B false) (c' := A.conv B true) rfl rfl h1]
            exact hr
  · cases hr
  · exact loop_exact (c := A.conv B false) (c' := A.conv B true) A.decOK B.encOK rfl rfl rfl
      _ _ _ _ _ _ hI hO hr hret

/-- What is written for a character when nothing may be replaced or counted: its encoding, or nothing
if it is a tag character that is not representable. -/
def exactOrTag (E : Encoder) (os wc : Nat) : Option (List Byte × Nat × Nat) :=
  match E.full os wc with
  | some (bs, os') => some (bs, os', 0)
  | none => if isTag wc then some ([], os, 0) else none

theorem runs_zero {atom unit discard} {E : Encoder} {s : St} {inp o i f}
    (h : RunsG atom unit discard (encChar E discard) s inp o i f) :
    ∀ s', f = .done s' → i = 0 → RunsG atom unit discard (exactOrTag E) s inp o 0 f := by
  induction h with
  | done s => intro _ _ _; exact .done s
  | more hne ha => rintro _ ⟨⟩
  | stop _ _ _ => rintro _ ⟨⟩
  | unenc _ _ _ => rintro _ ⟨⟩
  | skip hne ha hdis _ ih => intro s' hs hi; exact .skip hne ha hdis (ih s' hs hi)
  | shift hne ha _ ih => intro s' hs hi; exact .shift hne ha (ih s' hs hi)
  | char hne ha he _ ih =>
    intro s' hs hi
    have h1 := ih s' hs (by omega)
    refine RunsG.char (i := 0) (irr := 0) hne ha ?_ h1
    obtain rfl : _ = 0 := Nat.eq_zero_of_add_eq_zero_right hi
    unfold encChar at he
    unfold exactOrTag
    split at he
    · next heq => rw [heq]; exact he
    · next heq =>
      rw [heq]
      simp only
      split at he
      · next ht => rw [if_pos ht]; exact he
      · split at he
        · cases he
        · split at he <;> cases he

/-- C15. A conversion call that returns `n` has made exactly `n` irreversible conversions: the output is
the one of a run in which `n` characters were replaced (or dropped, with the discard flag). If it
returns 0, every character read was written exactly, apart from tag characters that are not
representable, which were dropped. -/
theorem C15_return_counts (A B : Entry) (discard : Bool) (s : St) (h : Reach (A.conv B discard) s)
    (inp room : List Byte) {r n}
    (hr : iconv (A.conv B discard) s (some inp) (some ⟨false, [], room⟩) = .ok r)
    (hret : r.ret = .ok n) :
    Runs A.atom (A.conv B discard) s inp r.buf.out n (.done r.st) ∧
    (n = 0 → RunsG A.atom A.unit discard (exactOrTag B.enc) s inp r.buf.out 0 (.done r.st)) := by
  rcases C04_return_contract A B discard s h inp room hr with
      ⟨m, h1, _, h3⟩ | ⟨h1, _⟩ | ⟨h1, _⟩ | ⟨h1, _⟩
  · rw [h1] at hret; cases hret
    exact ⟨h3, fun h0 => runs_zero h3 _ rfl h0⟩
  all_goals rw [h1] at hret; cases hret

/-! ## C16, C17: what earlier calls leave behind -/

/-- What the caller sees of a call. -/
inductive Reply where
  | iconv (ret : Except Errno Nat) (inpLeft : List Byte) (buf : Buf)
  | size (ret : Except Errno Nat)
  | static (ret : Except Errno Unit) (buf : Buf)
  | convert (ret : Except Errno Unit) (outLen : Option Nat) (data : Option (List Byte))

/-- A call with its reply. -/
def Call.reply (c : Conv) (s : St) : Call → Outcome (Reply × St)
  | .iconv inp out => do let r ← Reiconv.iconv c s inp out; return (.iconv r.ret r.inp r.buf, r.st)
  | .size inp => do let r ← resultSize c s inp; return (.size r.1, r.2)
  | .static inp b => do let r ← convertStatic c s inp b; return (.static r.1 r.2.2, r.2.1)
  | .convert inp dp lp alloc => do
    let r ← Reiconv.convert c s inp dp lp alloc
    return (.convert r.ret r.outLen r.data, r.st)

/-- The replies to a list of calls on one descriptor. -/
def replies (c : Conv) (s : St) : List Call → Outcome (List Reply)
  | [] => .ok []
  | k :: ks => do
    let (a, s) ← k.reply c s
    let as ← replies c s ks
    return a :: as

/-- C16, partial. For source encodings without byte order marks: after any history of calls,
`reiconv_iconv(cd, NULL, NULL, NULL, NULL)` returns 0 and all later calls give the replies they would
give on a new descriptor. Missing: UTF-16, UTF-32, UCS-2, UCS-4 as source
(`C16_reset_keeps_byte_order`). -/
theorem C16_reset_like_new_partial (A B : Entry) (discard : Bool) (hA : A.FixedOrder) (s : St)
    (h : Reach (A.conv B discard) s) :
    ∃ r, iconv (A.conv B discard) s none none = .ok r ∧ r.ret = .ok 0 ∧
      ∀ ks, replies (A.conv B discard) r.st ks = replies (A.conv B discard) St.init ks := by
  refine ⟨_, rfl, rfl, fun ks => ?_⟩
  have : plainReset s = St.init := fixed_clear hA h
  simp only [this]

/-- A history of `reiconv_convert` calls, all of which succeed (`al n` is the block `malloc` gives). -/
def allConvert (c : Conv) : St → List Call → St → Prop
  | s, [], s' => s' = s
  | s, k :: ks, s' => ∃ (inp : List Byte) (dp lp : Bool) (al : Nat → List Byte) (r : ConvertRes),
      k = .convert inp dp lp (fun n => some (al n)) ∧
      convert c s inp dp lp (fun n => some (al n)) = .ok r ∧
      r.ret = .ok () ∧ allConvert c r.st ks s'

/-- C17, partial. For source encodings without byte order marks: after any number of `reiconv_convert`
calls that returned 0, later calls give the replies of a new descriptor; if both encodings have no
state, the same holds after any history of calls, successful or not. Missing: failed calls with
target encodings that have a state (`C17_failed_convert_leaves_state`) and source encodings with byte
order marks. -/
theorem C17_no_trace_partial (A B : Entry) (discard : Bool) (s : St) :
    (A.FixedOrder → (∃ ks, allConvert (A.conv B discard) St.init ks s) →
      ∀ ks, replies (A.conv B discard) s ks = replies (A.conv B discard) St.init ks) ∧
    (A.Stateless → B.Stateless → Reach (A.conv B discard) s →
      ∀ ks, replies (A.conv B discard) s ks = replies (A.conv B discard) St.init ks) := by
  constructor
  · rintro hA ⟨ks, hks⟩ ks'
    have : s = St.init := by
      induction ks with
      | nil => exact hks
      | cons k ks ih =>
        obtain ⟨inp, dp, lp, al, r, rfl, hr, hret, hrest⟩ := hks
        have hst : r.st = St.init := by
          unfold convert at hr
          obtain ⟨⟨sz, s1⟩, h1, hr⟩ := bind_ok_inv hr
          obtain ⟨sz', s1', h1', hI1, hO1, h2⟩ := size_whole A B discard inp
          rw [h1] at h1'; cases h1'
          simp only at hr
          rcases h2 with ⟨n, out, irr, rfl, hw, rfl, h4⟩ | ⟨rfl, _⟩
          · obtain rfl := h4 hA
            simp only at hr
            split at hr
            · cases hr; cases hret
            · obtain ⟨⟨q, s2, b⟩, h5, hr⟩ := bind_ok_inv hr
              cases q with
              | error e => cases hr; cases hret
              | ok u =>
                cases hr
                obtain ⟨o, i, s', fo, fi, g1, _, _, g4, _⟩ :=
                  static_ok_inv (c := A.conv B discard) A.decOK B.encOK hI1 hO1 rfl h5
                have := (ends_inv (c := A.conv B discard) A.decOK B.encOK hI1 hO1 g1).1
                exact g4.trans (clear_init (hA _ this))
          · cases hr; cases hret
        rw [hst] at hrest
        exact ih hrest
    rw [this]
  · intro hA hB h ks
    obtain ⟨hI, hO⟩ := Entry.inv A B h
    have : s = St.init := by
      obtain ⟨is, os⟩ := s
      simp only at hI hO
      rw [hA.1 is hI, hB.2 os hO]; rfl
    rw [this]

/-! ## Which encodings the restrictions leave out -/

theorem simple_fixed {idx unit hu D E} {d : SimpleDec D unit} {e : SimpleEnc E} :
    (simpleEntry idx unit hu d e).FixedOrder := by
  intro is h
  rw [show is = IState.init from h]; rfl

theorem simple_stateless {idx unit hu D E} {d : SimpleDec D unit} {e : SimpleEnc E} :
    (simpleEntry idx unit hu d e).Stateless := ⟨fun _ h => h, fun _ h => h⟩

theorem simple_clean {idx unit hu D E} {d : SimpleDec D unit} {e : SimpleEnc E} :
    (simpleEntry idx unit hu d e).encOK.Clean := fun _ _ _ _ _ h1 h2 => e.clean_at h1 h2

/-! ## Violations

Concrete runs of the model in which the full properties fail. -/

deriving instance DecidableEq for CallRes
deriving instance DecidableEq for ConvertRes

/-- `malloc` as used in the examples. -/
def zeros (n : Nat) : Option (List Byte) := some (List.replicate n 0)

/-- C08, C09, C13 fail: UTF-8 to ASCII with the discard flag. For `a€` `reiconv_result_size` returns
1; `reiconv_convert_static_size` with 1 byte fails with `E2BIG`, and so does `reiconv_convert`. The
input is valid and does not end inside a sequence. -/
theorem C08_exact_buffer_too_small :
    let c := utf8_entry.conv ascii_entry true
    resultSize c St.init [0x61, 0xE2, 0x82, 0xAC] = .ok (.ok 1, St.init) ∧
    (∃ s2 b, convertStatic c St.init [0x61, 0xE2, 0x82, 0xAC] ⟨false, [], [0]⟩ =
      .ok (.error .E2BIG, s2, b)) ∧
    convert c St.init [0x61, 0xE2, 0x82, 0xAC] true true zeros =
      .ok ⟨.error .E2BIG, St.init, some 1, none⟩ := by
  refine ⟨by decide +kernel, ⟨_, _, by rfl⟩, by decide +kernel⟩

/-- The same without the flag, with a tag character: `a` U+E0041. -/
theorem C08_tag_too_small :
    let c := utf8_entry.conv ascii_entry false
    resultSize c St.init [0x61, 0xF3, 0xA0, 0x81, 0x81] = .ok (.ok 1, St.init) ∧
    convert c St.init [0x61, 0xF3, 0xA0, 0x81, 0x81] true true zeros =
      .ok ⟨.error .E2BIG, St.init, some 1, none⟩ := by
  refine ⟨by decide +kernel, by decide +kernel⟩

/-- C09 fails: UTF-16 to UTF-8. The input `4E 4F FF FE` is U+4E4F followed by a byte order mark that
switches the byte order; its conversion is `E4 B9 8F`. `reiconv_convert` on a new descriptor returns 0
with `E4 BD 8E`, which is U+4F4E: `reiconv_result_size` has left the byte order switched. -/
theorem C09_wrong_text :
    let c := utf16_entry.conv utf8_entry false
    Whole utf16_entry.atom c St.init [0x4E, 0x4F, 0xFF, 0xFE] [0xE4, 0xB9, 0x8F] 0 ∧
    convert c St.init [0x4E, 0x4F, 0xFF, 0xFE] true true zeros =
      .ok ⟨.ok (), ⟨⟨1, 0⟩, 0⟩, some 3, some [0xE4, 0xBD, 0x8E]⟩ := by
  refine ⟨⟨[0xE4, 0xB9, 0x8F], 0, ⟨⟨1, 0⟩, 0⟩, [], 0, ?_, rfl, rfl, rfl⟩, by decide +kernel⟩
  exact RunsG.char (wc := 0x4E4F) (n := 2) (is := IState.init) (bs := [0xE4, 0xB9, 0x8F]) (os := 0)
    (i := 0) (irr := 0) (out := []) (by simp) rfl rfl
    (RunsG.shift (n := 2) (is := ⟨1, 0⟩) (by simp) rfl (.done _))

/-- C10 fails: UCS-4BE to UTF-16 with the discard flag. The code 0x110000 is dropped, the result is
empty, but the first two bytes of the buffer are overwritten. -/
theorem C10_rest_overwritten :
    ∃ s2 b, convertStatic (ucs4be_entry.conv utf16_entry true) St.init [0x00, 0x11, 0x00, 0x00]
      ⟨false, [], [1, 2, 3, 4]⟩ = .ok (.ok (), s2, b) ∧ b.out = [] ∧ b.room = [0xFE, 0xFF, 3, 4] :=
  ⟨_, _, by rfl, rfl, rfl⟩

/-- C18 fails for `reiconv_convert_static_size`: it accepts the incomplete sequence `E2 82`. -/
theorem C18_static_accepts_truncated :
    Truncated utf8_entry.atom IState.init [0x61, 0xE2, 0x82] ∧
    ∃ s2 b, convertStatic (utf8_entry.conv utf16be_entry false) St.init [0x61, 0xE2, 0x82]
      ⟨false, [], [0, 0, 0, 0]⟩ = .ok (.ok (), s2, b) ∧ b.out = [0x00, 0x61] :=
  ⟨.char (wc := 0x61) (n := 1) (is' := IState.init) (by simp) rfl (.more (by simp) rfl),
    _, _, by rfl, rfl⟩

/-- C16 fails for UTF-16: a byte order mark read before the reset decides how the text after the reset
is read. -/
theorem C16_reset_keeps_byte_order :
    let c := utf16_entry.conv utf8_entry false
    ∃ r1 r2 r3 r4 : CallRes,
      iconv c St.init (some [0xFF, 0xFE]) (some ⟨false, [], [0, 0, 0, 0]⟩) = .ok r1 ∧
      iconv c r1.st none none = .ok r2 ∧
      iconv c r2.st (some [0x41, 0x00]) (some ⟨false, [], [0, 0, 0, 0]⟩) = .ok r3 ∧
      r3.buf.out = [0x41] ∧
      iconv c St.init (some [0x41, 0x00]) (some ⟨false, [], [0, 0, 0, 0]⟩) = .ok r4 ∧
      r4.buf.out = [0xE4, 0x84, 0x80] :=
  ⟨_, _, _, _, by rfl, by rfl, by rfl, by rfl, by rfl, by rfl⟩

/-- C17 fails: UTF-8 to UTF-16. `reiconv_convert` of `b` succeeds on a new descriptor, but fails after a
failed `reiconv_convert` of `a FF`, which has left the descriptor in the state after the byte order
mark. -/
theorem C17_failed_convert_leaves_state :
    let c := utf8_entry.conv utf16_entry false
    ∃ s2 s3 : St,
      convert c St.init [0x62] true true zeros =
        .ok ⟨.ok (), St.init, some 4, some [0xFE, 0xFF, 0x00, 0x62]⟩ ∧
      convert c St.init [0x61, 0xFF] true true zeros = .ok ⟨.error .EILSEQ, s2, none, none⟩ ∧
      convert c s2 [0x62] true true zeros = .ok ⟨.error .E2BIG, s3, some 2, none⟩ :=
  ⟨⟨IState.init, 1⟩, St.init, by decide +kernel, by decide +kernel, by decide +kernel⟩

/-! ## The hypotheses are met -/

/-- C08: a text of two characters. -/
example : resultSize (utf8_entry.conv utf16_entry false) St.init [0xC3, 0xA9, 0xE2, 0x82, 0xAC] =
    .ok (.ok 6, St.init) := by decide +kernel

example : utf8_entry.FixedOrder := simple_fixed
example : ∃ owed, ascii_entry.encOK.Covers owed := ⟨_, simple_clean.covers⟩

/-- C08, C09: `Faithful` holds for it. -/
example : Faithful utf8_entry.atom (utf8_entry.conv utf16_entry false) St.init
    [0xC3, 0xA9, 0xE2, 0x82, 0xAC] [0xFE, 0xFF, 0x00, 0xE9, 0x20, 0xAC] :=
  ⟨_, 0, ⟨IState.init, 1⟩, [], RunsG.char (wc := 0xE9) (n := 2) (is := IState.init)
      (bs := [0xFE, 0xFF, 0x00, 0xE9]) (os := 1) (i := 0) (irr := 0) (out := [0x20, 0xAC])
      (by simp) rfl rfl
    (RunsG.char (wc := 0x20AC) (n := 3) (is := IState.init) (bs := [0x20, 0xAC]) (os := 1) (i := 0)
      (irr := 0) (out := []) (by simp) rfl rfl (.done _)), rfl, rfl⟩

example : convert (utf8_entry.conv utf16_entry false) St.init [0xC3, 0xA9, 0xE2, 0x82, 0xAC]
    true true zeros =
    .ok ⟨.ok (), St.init, some 6, some [0xFE, 0xFF, 0x00, 0xE9, 0x20, 0xAC]⟩ := by decide +kernel

/-- C10, C11: with 8 bytes the last four are untouched, with 3 bytes the call fails. -/
example : ∃ s2 b, convertStatic (utf8_entry.conv utf16be_entry false) St.init
    [0xC3, 0xA9, 0xE2, 0x82, 0xAC] ⟨false, [], [1, 2, 3, 4, 5, 6, 7, 8]⟩ = .ok (.ok (), s2, b) ∧
    b.out ++ b.room = [0x00, 0xE9, 0x20, 0xAC, 5, 6, 7, 8] := ⟨_, _, by rfl, rfl⟩

example : ∃ s2 b, convertStatic (utf8_entry.conv utf16be_entry false) St.init
    [0xC3, 0xA9, 0xE2, 0x82, 0xAC] ⟨false, [], [1, 2, 3]⟩ = .ok (.error .E2BIG, s2, b) ∧
    b.out = [0x00, 0xE9] := ⟨_, _, by rfl, rfl⟩

/-- C12: valid, and not valid. -/
example : Valid utf8_entry.atom IState.init [0xC3, 0xA9] :=
  .char (wc := 0xE9) (n := 2) (is' := IState.init) (by simp) rfl (.nil _)

example : ¬ Valid utf8_entry.atom IState.init [0xC3, 0xC3] := by
  intro h
  cases h with
  | char _ h _ => cases h
  | shift _ h _ => cases h

/-- C13, C14, C15: strict, a call that returns 0; discard, a call that returns 1. -/
example : ∃ r, iconv (utf8_entry.conv ascii_entry false) St.init (some [0x61, 0x62])
    (some ⟨false, [], [0, 0, 0]⟩) = .ok r ∧ r.ret = .ok 0 ∧ r.buf.out = [0x61, 0x62] :=
  ⟨_, by rfl, by rfl, by rfl⟩

example : ∃ r, iconv (utf8_entry.conv ascii_entry true) St.init (some [0x61, 0xFF, 0xE2, 0x82, 0xAC, 0x62])
    (some ⟨false, [], [0, 0, 0]⟩) = .ok r ∧ r.ret = .ok 1 ∧ r.buf.out = [0x61, 0x62] :=
  ⟨_, by rfl, by rfl, by rfl⟩

/-- C16, C17: a descriptor that is not in the initial state. -/
example : Reach (utf8_entry.conv utf16_entry false) ⟨IState.init, 1⟩ :=
  ⟨[.iconv (some [0x61]) (some ⟨false, [], [0, 0, 0, 0]⟩)], by rfl⟩

end Reiconv
