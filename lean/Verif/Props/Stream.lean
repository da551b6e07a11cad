import Verif.Props.RoundTrip

/-!
# C41 (streaming decoders), C44 (homomorphism), C46 (output size bounds)
-/

namespace Reiconv

/-! ## C41 -/

/-- C41. Two calls from the same state, on `a` and on the longer input `a ++ t`, neither running out of
room. If the first fails with `EILSEQ` then so does the second, with the same output: more bytes do not
make a rejected sequence valid. Otherwise the first has consumed no part of an incomplete sequence and
decided nothing about it: going on with the bytes left over, if any, and then `t`, gives the same as
having had the longer input from the start. -/
theorem C41_streaming (A B : Entry) (discard : Bool) (s : St) (h : Reach (A.conv B discard) s)
    (a t room1 room2 room3 : List Byte) {r1 r2 r3}
    (h1 : iconv (A.conv B discard) s (some a) (some ⟨false, [], room1⟩) = .ok r1)
    (h2 : iconv (A.conv B discard) s (some (a ++ t)) (some ⟨false, [], room2⟩) = .ok r2)
    (h3 : iconv (A.conv B discard) r1.st (some (r1.inp ++ t)) (some ⟨false, [], room3⟩) = .ok r3)
    (e1 : r1.ret ≠ .error .E2BIG) (e2 : r2.ret ≠ .error .E2BIG) (e3 : r3.ret ≠ .error .E2BIG) :
    (r1.ret = .error .EILSEQ → r2.ret = .error .EILSEQ ∧ r2.buf.out = r1.buf.out) ∧
    (r1.ret ≠ .error .EILSEQ →
      r2.buf.out = r1.buf.out ++ r3.buf.out ∧
      (∀ e, r2.ret = .error e ↔ r3.ret = .error e) ∧
      (r2.ret ≠ .error .EILSEQ → r2.st = r3.st ∧ r2.inp = r3.inp)) := by
  obtain ⟨hI, hO⟩ := Entry.inv A B h
  -- every call that does not run out of room is described by a run
  have desc : ∀ {s : St} {inp room : List Byte} {r}, A.decOK.Inv s.is → B.encOK.Inv s.os →
      iconv (A.conv B discard) s (some inp) (some ⟨false, [], room⟩) = .ok r →
      r.ret ≠ .error .E2BIG → ∃ irr, (A.decOK.Inv r.st.is ∧ B.encOK.Inv r.st.os) ∧
        ((∃ n, r.ret = .ok n ∧ r.inp = [] ∧
          Runs A.atom (A.conv B discard) s inp r.buf.out irr (.done r.st)) ∨
         (r.ret = .error .EINVAL ∧
          Runs A.atom (A.conv B discard) s inp r.buf.out irr (.einval r.st r.inp)) ∨
         (r.ret = .error .EILSEQ ∧
          Runs A.atom (A.conv B discard) s inp r.buf.out irr .eilseq)) := by
    intro s inp room r hI hO hr he
    obtain ⟨r', e, irr, hr', hp⟩ := iconv_spec (c := A.conv B discard) A.decOK B.encOK s inp
      ⟨false, [], room⟩ hI hO (fun _ => rfl)
    rw [hr] at hr'; cases hr'
    have hout : r.buf.out = e := by simpa using hp.out_eq
    refine ⟨irr, ⟨hp.inv_is, hp.inv_os⟩, ?_⟩
    have hres := hp.res
    cases hret : r.ret with
    | ok n =>
      rw [hret] at hres
      refine .inl ⟨n, rfl, hres.1, ?_⟩
      have := hp.cont [] 0 (.done r.st) (by rw [hres.1]; exact .done _)
      rw [hout]; simpa using this
    | error x =>
      rw [hret] at hres
      cases x with
      | EINVAL =>
        refine .inr (.inl ⟨rfl, ?_⟩)
        have := hp.cont [] 0 (.einval r.st r.inp) (.more hres.1 hres.2)
        rw [hout]; simpa using this
      | EILSEQ =>
        refine .inr (.inr ⟨rfl, ?_⟩)
        have := hp.cont [] 0 .eilseq hres
        rw [hout]; simpa using this
      | E2BIG => exact absurd hret he
      | ENOMEM => exact absurd hres id
  obtain ⟨i1, ⟨hI1, hO1⟩, d1⟩ := desc hI hO h1 e1
  obtain ⟨i2, _, d2⟩ := desc hI hO h2 e2
  obtain ⟨i3, _, d3⟩ := desc hI1 hO1 h3 e3
  constructor
  · intro he
    rcases d1 with ⟨n, hx, _⟩ | ⟨hx, _⟩ | ⟨_, hx⟩
    · rw [hx] at he; cases he
    · rw [hx] at he; cases he
    have hl := runs_append_eilseq A.decOK hx hI rfl t
    rcases d2 with ⟨n, _, _, hy⟩ | ⟨_, hy⟩ | ⟨hr, hy⟩
    · obtain ⟨_, _, hz⟩ := runs_det hl hy; cases hz
    · obtain ⟨_, _, hz⟩ := runs_det hl hy; cases hz
    · exact ⟨hr, (runs_det hl hy).1.symm⟩
  · intro he
    -- the run of the longer input, put together
    have key : ∀ {o i f}, Runs A.atom (A.conv B discard) r1.st (r1.inp ++ t) o i f →
        Runs A.atom (A.conv B discard) s (a ++ t) (r1.buf.out ++ o) (i1 + i) f := by
      intro o i f hx
      rcases d1 with ⟨n, _, hnil, hy⟩ | ⟨_, hy⟩ | ⟨hy, _⟩
      · rw [hnil] at hx
        exact runs_append A.decOK hy hI _ rfl hx
      · exact runs_append_einval A.decOK hy hI _ _ rfl hx
      · exact absurd hy he
    rcases d3 with ⟨n3, hr3, hn3, hy⟩ | ⟨hr3, hy⟩ | ⟨hr3, hy⟩ <;>
      rcases d2 with ⟨n2, hr2, hn2, hz⟩ | ⟨hr2, hz⟩ | ⟨hr2, hz⟩ <;>
      obtain ⟨q1, _, q2⟩ := runs_det (key hy) hz
    · simp only [Final.done.injEq] at q2
      exact ⟨q1.symm, by simp [hr2, hr3], fun _ => ⟨q2.symm, by rw [hn2, hn3]⟩⟩
    · cases q2
    · cases q2
    · cases q2
    · simp only [Final.einval.injEq] at q2
      exact ⟨q1.symm, by simp [hr2, hr3], fun _ => ⟨q2.1.symm, q2.2.symm⟩⟩
    · cases q2
    · cases q2
    · cases q2
    · exact ⟨q1.symm, by simp [hr2, hr3], fun hc => absurd hr2 hc⟩

/-- The hypotheses are met: the first two bytes of the euro sign, then the third. -/
example : ∃ r1 r2 r3,
    iconv (utf8_entry.conv utf16le_entry false) St.init (some [0x61, 0xE2, 0x82])
      (some ⟨false, [], [0, 0, 0, 0]⟩) = .ok r1 ∧ r1.ret = .error .EINVAL ∧ r1.inp = [0xE2, 0x82] ∧
    iconv (utf8_entry.conv utf16le_entry false) St.init (some [0x61, 0xE2, 0x82, 0xAC])
      (some ⟨false, [], [0, 0, 0, 0]⟩) = .ok r2 ∧ r2.ret = .ok 0 ∧
    iconv (utf8_entry.conv utf16le_entry false) r1.st (some (r1.inp ++ [0xAC]))
      (some ⟨false, [], [0, 0, 0, 0]⟩) = .ok r3 ∧ r3.ret = .ok 0 :=
  ⟨_, _, _, by rfl, rfl, rfl, by rfl, rfl, by rfl, rfl⟩

/-! ## C44 -/

/-- Source without decoding state, target without encoding state. -/
structure StatelessPair (A B : Entry) : Prop where
  dec : ∀ is, A.decOK.Inv is → is = IState.init
  flush : A.dec.flushwc = none
  enc : ∀ os, B.encOK.Inv os → os = 0
  tail : B.enc.tail 0 = []

theorem StatelessPair.fixed {A B : Entry} (h : StatelessPair A B) : A.FixedOrder := by
  intro is hi; rw [h.dec is hi]; rfl

theorem StatelessPair.whole {A B : Entry} (h : StatelessPair A B) {discard inp out irr} :
    Whole A.atom (A.conv B discard) St.init inp out irr ↔
      Runs A.atom (A.conv B discard) St.init inp out irr (.done St.init) := by
  have hfin : ∀ s : St, finish (A.conv B discard) s = some (B.enc.tail s.os, 0) := by
    intro s
    have : (pending (A.conv B discard) s).1 = none := by
      unfold pending; show (match A.dec.flushwc with | none => _ | some f => _ : Option Nat × IState).1 = _
      rw [h.flush]
    unfold finish; rw [this]; rfl
  have hst : ∀ {s' o i}, Runs A.atom (A.conv B discard) St.init inp o i (.done s') → s' = St.init := by
    intro s' o i hr
    obtain ⟨h1, h2⟩ := (runs_inv (c := A.conv B discard) A.decOK B.encOK hr A.decOK.inv_init
      B.encOK.inv_init).1 _ rfl
    obtain ⟨is, os⟩ := s'
    simp only at h1 h2
    rw [h.dec _ h1, h.enc _ h2]; rfl
  constructor
  · rintro ⟨o, i, s', fo, fi, h1, h2, rfl, rfl⟩
    rw [hfin] at h2
    cases h2
    cases hst h1
    have ht : B.enc.tail St.init.os = [] := h.tail
    rw [ht, List.append_nil]; exact h1
  · intro h1
    refine ⟨out, irr, _, [], 0, h1, ?_, by simp, by simp⟩
    rw [hfin]
    have ht : B.enc.tail St.init.os = [] := h.tail
    rw [ht]

theorem StatelessPair.append {A B : Entry} (h : StatelessPair A B) {discard a b o1 o2 i1 i2}
    (h1 : Whole A.atom (A.conv B discard) St.init a o1 i1)
    (h2 : Whole A.atom (A.conv B discard) St.init b o2 i2) :
    Whole A.atom (A.conv B discard) St.init (a ++ b) (o1 ++ o2) (i1 + i2) := by
  rw [h.whole] at *
  exact runs_append A.decOK h1 A.decOK.inv_init _ rfl h2

/-- C44. For source and target without state, on new descriptors: if `reiconv_convert` succeeds on `a`
and on `b`, then on `a ++ b` (1) `reiconv_result_size` returns the sum of the lengths, (2)
`reiconv_convert_static_size` with at least 64 bytes more than that succeeds and writes the
concatenation of the two results, (3) `reiconv_convert` gives the concatenation if it returns 0, and it
returns 0 if every character is representable. -/
theorem C44_homomorphism (A B : Entry) (h : StatelessPair A B) (discard : Bool) (a b o1 o2 : List Byte)
    (alloc : Nat → List Byte) (hal : ∀ n, (alloc n).length = n) {r1 r2}
    (h1 : convert (A.conv B discard) St.init a true true (fun n => some (alloc n)) = .ok r1)
    (h1' : r1.ret = .ok ()) (h1d : r1.data = some o1)
    (h2 : convert (A.conv B discard) St.init b true true (fun n => some (alloc n)) = .ok r2)
    (h2' : r2.ret = .ok ()) (h2d : r2.data = some o2) :
    (∃ s, resultSize (A.conv B discard) St.init (a ++ b) = .ok (.ok (o1.length + o2.length), s)) ∧
    (∀ room : List Byte, o1.length + o2.length + 64 ≤ room.length →
      ∃ s x, convertStatic (A.conv B discard) St.init (a ++ b) ⟨false, [], room⟩ = .ok (.ok (), s, x) ∧
        x.out = o1 ++ o2) ∧
    (∃ r, convert (A.conv B discard) St.init (a ++ b) true true (fun n => some (alloc n)) = .ok r ∧
      (r.ret = .ok () → r.data = some (o1 ++ o2)) ∧
      ((∃ out, Faithful A.atom (A.conv B discard) St.init (a ++ b) out) → r.ret = .ok ())) := by
  have conv_whole : ∀ {inp o r}, convert (A.conv B discard) St.init inp true true
      (fun n => some (alloc n)) = .ok r → r.ret = .ok () → r.data = some o →
      ∃ irr, Whole A.atom (A.conv B discard) St.init inp o irr := by
    intro inp o r hc hr hd
    obtain ⟨r', h3, h4, _⟩ := C09_convert_whole_partial A B discard h.fixed inp alloc hal
    rw [hc] at h3; cases h3
    rcases h4 with ⟨_, o', irr, hw, _, h6⟩ | ⟨⟨e, h6⟩, _⟩
    · rw [hd] at h6; cases h6; exact ⟨irr, hw⟩
    · rw [hr] at h6; cases h6
  obtain ⟨i1, w1⟩ := conv_whole h1 h1' h1d
  obtain ⟨i2, w2⟩ := conv_whole h2 h2' h2d
  have w := h.append w1 w2
  refine ⟨?_, ?_, ?_⟩
  · obtain ⟨sz, s1, h3, _, _, ⟨n, out, irr, rfl, hw, rfl, h4⟩ | ⟨rfl, hno⟩⟩ :=
      size_whole A B discard (a ++ b)
    · refine ⟨s1, ?_⟩
      rw [h3, (whole_det hw w).1, List.length_append]
    · exact absurd w (hno _ _)
  · intro room hroom
    obtain ⟨ret, s2, x, hx, hl, h5⟩ := static_whole A B discard St.init A.decOK.inv_init
      B.encOK.inv_init (a ++ b) room w (Or.inl (by rw [List.length_append]; omega))
    rcases h5 with ⟨rfl, h5, _, _⟩ | ⟨rfl, h5, ⟨rest, h7⟩, h6⟩
    · exact ⟨s2, x, hx, h5⟩
    · exfalso
      have := congrArg List.length h7
      simp only [List.length_append] at this
      omega
  · obtain ⟨r, h3, h4, h5, _⟩ := C09_convert_whole_partial A B discard h.fixed (a ++ b) alloc hal
    refine ⟨r, h3, ?_, h5⟩
    intro hr
    rcases h4 with ⟨_, o', irr, hw, _, h6⟩ | ⟨⟨e, h6⟩, _⟩
    · rw [h6, (whole_det hw w).1]
    · rw [hr] at h6; cases h6

theorem statelessPair_simple {idx unit hu D E} {d : SimpleDec D unit} {e : SimpleEnc E}
    {idx' unit' hu' D' E'} {d' : SimpleDec D' unit'} {e' : SimpleEnc E'} :
    StatelessPair (simpleEntry idx unit hu d e) (simpleEntry idx' unit' hu' d' e') where
  dec := fun _ h => h
  flush := d.flush
  enc := fun _ h => h
  tail := e'.tail_eq 0

/-- The hypotheses are met, for example by UTF-8 and all single-byte encodings. -/
example : StatelessPair utf8_entry cp1252_entry := statelessPair_simple
example (alloc : Nat → List Byte) (hal : ∀ n, (alloc n).length = n) :
    ∃ r, convert (utf8_entry.conv utf16be_entry false) St.init [0xE2, 0x82, 0xAC] true true
      (fun n => some (alloc n)) = .ok r ∧ r.ret = .ok () ∧ r.data = some [0x20, 0xAC] := by
  obtain ⟨r, h1, h2, _, h3⟩ := convert_text (A := utf8_entry) (B := utf16be_entry) false simple_fixed
    (inp := [0xE2, 0x82, 0xAC]) (cs := [0x20AC]) ((C19_utf8_decoding _ _).2 (by decide)) ⟨_, _, rfl, rfl⟩ alloc hal
  exact ⟨r, h1, h2, h3⟩

/-! ## C46 -/

/-- Every character of `A` takes at least `u` bytes of input, on average: `p` counts bytes read ahead. -/
def Entry.MinIn (A : Entry) (u : Nat) : Prop :=
  ∃ p : IState → Nat, p IState.init = 0 ∧
    (∀ is s wc n is', A.decOK.Inv is → s ≠ [] → A.atom is s = .char wc n is' → u + p is' ≤ n + p is) ∧
    (∀ is s n is', A.decOK.Inv is → s ≠ [] → A.atom is s = .shift n is' → p is' ≤ n + p is) ∧
    ∀ is, A.decOK.Inv is → u * (A.dec.kept is).length ≤ p is

/-- Every character takes at most `K` bytes in `B`, and marks and the final shift sequence together at
most `T` bytes. -/
def Entry.MaxOut (B : Entry) (K T : Nat) : Prop :=
  ∃ p : Nat → Nat, p 0 = T ∧
    (∀ os wc bs os', B.encOK.Inv os → B.enc.full os wc = some (bs, os') →
      bs.length + p os' ≤ K + p os) ∧
    ∀ os, B.encOK.Inv os → (B.enc.tail os).length ≤ p os

theorem encChar_bound {E : Encoder} (he : EncOK E) {K : Nat} {p : Nat → Nat} {discard os wc bs os' i}
    (hp : ∀ os wc bs os', he.Inv os → E.full os wc = some (bs, os') → bs.length + p os' ≤ K + p os)
    (hO : he.Inv os) (h : encChar E discard os wc = some (bs, os', i)) :
    bs.length + p os' ≤ K + p os := by
  unfold encChar at h
  cases hf : E.full os wc with
  | some x =>
    obtain ⟨b, o⟩ := x
    rw [hf] at h; cases h; exact hp _ _ _ _ hO hf
  | none =>
    rw [hf] at h
    simp only at h
    split at h
    · cases h; simp
    · split at h
      · cases h; simp
      · cases hf2 : E.full os 0xFFFD with
        | none => rw [hf2] at h; cases h
        | some y =>
          obtain ⟨b, o⟩ := y
          rw [hf2] at h; cases h; exact hp _ _ _ _ hO hf2

theorem convert_outLen {c : Conv} {s : St} {inp alloc m s1 r}
    (h1 : resultSize c s inp = .ok (.ok m, s1)) (h : convert c s inp true true alloc = .ok r) :
    r.outLen = some m := by
  unfold convert at h
  rw [h1] at h
  simp only [Outcome.bind_ok, if_true, Bool.not_true, Bool.false_eq_true, if_false] at h
  obtain ⟨⟨ret, s2, b⟩, _, h3⟩ := bind_ok_inv h
  cases ret with
  | error e => simp only at h3; cases h3; rfl
  | ok _ => simp only at h3; cases h3; rfl

theorem runs_bound {A B : Entry} {discard : Bool} {K u : Nat} {q : IState → Nat} {p : Nat → Nat}
    (hq1 : ∀ is s wc n is', A.decOK.Inv is → s ≠ [] → A.atom is s = .char wc n is' →
      u + q is' ≤ n + q is)
    (hq2 : ∀ is s n is', A.decOK.Inv is → s ≠ [] → A.atom is s = .shift n is' → q is' ≤ n + q is)
    (hp : ∀ os wc bs os', B.encOK.Inv os → B.enc.full os wc = some (bs, os') →
      bs.length + p os' ≤ K + p os) {s inp o i f}
    (h : Runs A.atom (A.conv B discard) s inp o i f) (hI : A.decOK.Inv s.is) (hO : B.encOK.Inv s.os) :
    u * o.length ≤ K * (inp.length + q s.is) + u * p s.os ∧
    ∀ s', f = .done s' → u * o.length + K * q s'.is + u * p s'.os ≤
      K * (inp.length + q s.is) + u * p s.os := by
  have hmono : ∀ {a b : Nat}, a ≤ b → K * a ≤ K * b := fun h => Nat.mul_le_mul_left K h
  induction h with
  | done s =>
    refine ⟨by simp, ?_⟩
    rintro s' ⟨⟩; simp
  | more _ _ => exact ⟨by simp, by rintro _ ⟨⟩⟩
  | stop _ _ _ => exact ⟨by simp, by rintro _ ⟨⟩⟩
  | unenc _ _ _ => exact ⟨by simp, by rintro _ ⟨⟩⟩
  | @skip s inp out irr fin hne ha _ _ ih =>
    have hl : (inp.drop (A.conv B discard).unit).length + q s.is ≤ inp.length + q s.is := by
      rw [List.length_drop]; omega
    obtain ⟨h1, h2⟩ := ih hI hO
    have hk := hmono hl
    exact ⟨Nat.le_trans h1 (Nat.add_le_add_right hk _),
      fun s' hs => Nat.le_trans (h2 s' hs) (Nat.add_le_add_right hk _)⟩
  | @shift s inp n is out irr fin hne ha _ ih =>
    obtain ⟨g1, g2, _⟩ := A.decOK.shift_ok _ _ _ _ hI hne ha
    have hq := hq2 _ _ _ _ hI hne ha
    have hl : (inp.drop n).length + q is ≤ inp.length + q s.is := by rw [List.length_drop]; omega
    obtain ⟨h1, h2⟩ := ih g1 hO
    have hk := hmono hl
    exact ⟨Nat.le_trans h1 (Nat.add_le_add_right hk _),
      fun s' hs => Nat.le_trans (h2 s' hs) (Nat.add_le_add_right hk _)⟩
  | @char s inp wc n is bs os i out irr fin hne ha he _ ih =>
    obtain ⟨g1, g2, _⟩ := A.decOK.char_ok _ _ _ _ _ hI hne ha
    have hq := hq1 _ _ _ _ _ hI hne ha
    have hb := encChar_bound B.encOK hp hO he
    have hl : u + ((inp.drop n).length + q is) ≤ inp.length + q s.is := by
      rw [List.length_drop]; omega
    obtain ⟨h1, h2⟩ := ih g1 (encChar_inv B.encOK hO he)
    have hk := hmono hl
    rw [Nat.mul_add] at hk
    have hu := Nat.mul_le_mul_left u hb
    simp only [Nat.mul_add] at hu
    simp only [List.length_append, Nat.mul_add u bs.length]
    rw [Nat.mul_comm K u] at hk
    simp only at h1 h2
    refine ⟨by omega, fun s' hs => ?_⟩
    have := h2 s' hs
    omega

/-- C46. If every character of `A` takes at least `u` bytes and every character of `B` at most `K` bytes,
with at most `T` bytes for marks and final shift sequences, then the size that
`reiconv_result_size` reports (and so the length of what `reiconv_convert` returns) is at most
`K / u` per input byte plus `T`, and so is everything a program ever collects from a new descriptor. -/
theorem C46_output_bound (A B : Entry) (discard : Bool) {u K T : Nat} (hA : A.MinIn u)
    (hB : B.MaxOut K T) :
    (∀ inp n s1, resultSize (A.conv B discard) St.init inp = .ok (.ok n, s1) →
      u * n ≤ K * inp.length + u * T) ∧
    (∀ inp alloc r, convert (A.conv B discard) St.init inp true true alloc = .ok r →
      ∀ n, r.outLen = some n → u * n ≤ K * inp.length + u * T) ∧
    (∀ ops y, session (A.conv B discard) (Sess.start St.init) ops = .ok y →
      u * y.out.length ≤ K * (fed ops).length + u * T) := by
  obtain ⟨q, hq0, hq1, hq2, hq3⟩ := hA
  obtain ⟨p, hp0, hp1, hp2⟩ := hB
  have hsize : ∀ inp n s1, resultSize (A.conv B discard) St.init inp = .ok (.ok n, s1) →
      u * n ≤ K * inp.length + u * T := by
    intro inp n s1 h
    obtain ⟨sz, s1', h1, _, _, ⟨n', out, irr, h3, hw, h5, _⟩ | ⟨h3, hno⟩⟩ := size_whole A B discard inp
    · rw [h] at h1; cases h1; cases h3
      obtain ⟨o, i, s', fo, fi, h1, h2, rfl, rfl⟩ := hw
      obtain ⟨_, hb⟩ := runs_bound hq1 hq2 hp1 h1 A.decOK.inv_init B.encOK.inv_init
      obtain ⟨hI, hO⟩ := (runs_inv (c := A.conv B discard) A.decOK B.encOK h1 A.decOK.inv_init
        B.encOK.inv_init).1 _ rfl
      have hb := hb s' rfl
      have hst : q St.init.is = 0 ∧ p St.init.os = T := ⟨hq0, hp0⟩
      rw [hst.1, hst.2, Nat.add_zero] at hb
      have hk := hq3 s'.is hI
      rw [← pending_kept (B := B) (discard := discard) (os := s'.os)] at hk
      have hfo : u * fo.length ≤ K * q s'.is + u * p s'.os := by
        unfold finish at h2
        have hpe : pending (A.conv B discard) ⟨s'.is, s'.os⟩ = pending (A.conv B discard) s' := rfl
        rw [hpe] at hk
        cases hpend : (pending (A.conv B discard) s').1 with
        | none =>
          rw [hpend] at h2
          cases h2
          have h9 : u * (B.enc.tail s'.os).length ≤ u * p s'.os := Nat.mul_le_mul_left u (hp2 _ hO)
          exact Nat.le_trans h9 (Nat.le_add_left _ _)
        | some wc =>
          rw [hpend] at h2 hk
          have h9 : (match encChar B.enc discard s'.os wc with
            | some (bs, os, i) => some (bs ++ B.enc.tail os, i)
            | none => none) = some (fo, fi) := h2
          cases he : encChar B.enc discard s'.os wc with
          | none => rw [he] at h9; cases h9
          | some x =>
            obtain ⟨bs, os, j⟩ := x
            rw [he] at h9; cases h9
            have hb1 := encChar_bound B.encOK hp1 hO he
            have hO' := encChar_inv (c := A.conv B discard) B.encOK hO he
            have hb2 := hp2 os hO'
            simp only [Option.toList_some, List.length_singleton, Nat.mul_one] at hk
            have hu : u * (bs ++ B.enc.tail os).length ≤ u * (K + p s'.os) :=
              Nat.mul_le_mul_left u (by rw [List.length_append]; omega)
            have hk' := Nat.mul_le_mul_left K hk
            rw [Nat.mul_add, Nat.mul_comm u K] at hu
            omega
      rw [h5, List.length_append, Nat.mul_add]
      omega
    · rw [h] at h1; cases h1; cases h3
  refine ⟨hsize, ?_, ?_⟩
  · intro inp alloc r h n hn
    obtain ⟨sz, s1, h1, _⟩ := size_whole A B discard inp
    have h' := h
    unfold convert at h'
    rw [h1] at h'
    cases sz with
    | error e =>
      simp only [Outcome.bind_ok] at h'
      cases h'
      cases hn
    | ok m =>
      have hm : r.outLen = some m := convert_outLen h1 h
      rw [hm] at hn; cases hn; exact hsize _ _ _ h1
  · intro ops y hy
    obtain ⟨y', h1, h2⟩ := C05_C06_prefix A B discard St.init (.init _) ops
    rw [hy] at h1; cases h1
    obtain ⟨o, i, f, hr⟩ := runs_total (ec := encChar B.enc discard) (discard := discard) A.decOK _
      St.init (fed ops) A.decOK.inv_init (Nat.le_refl _)
    obtain ⟨rest, rfl⟩ := h2 [] o i f (by rw [List.append_nil]; exact hr)
    obtain ⟨hb, _⟩ := runs_bound (B := B) (discard := discard) hq1 hq2 hp1 hr A.decOK.inv_init
      B.encOK.inv_init
    have hst : q St.init.is = 0 ∧ p St.init.os = T := ⟨hq0, hp0⟩
    rw [hst.1, hst.2, Nat.add_zero, List.length_append, Nat.mul_add] at hb
    omega

theorem minIn_simple {idx unit hu D E} {d : SimpleDec D unit} {e : SimpleEnc E} {u : Nat}
    (h : ∀ s wc n, s ≠ [] → d.g s = .char wc n → u ≤ n) : (simpleEntry idx unit hu d e).MinIn u := by
  refine ⟨fun _ => 0, rfl, ?_, ?_, ?_⟩
  · intro is s wc n is' _ hne ha
    have ha : atomOf d.g is s = .char wc n is' := ha
    unfold atomOf at ha
    split at ha
    · next heq => cases ha; exact h _ _ _ hne heq
    · cases ha
    · cases ha
  · intro is s n is' _ _ ha; exact absurd ha atomOf_shift
  · intro is _; rw [simple_kept]; simp

theorem minIn_one {idx unit hu D E} {d : SimpleDec D unit} {e : SimpleEnc E} :
    (simpleEntry idx unit hu d e).MinIn 1 := minIn_simple fun s wc n hne h => (d.char_ok s wc n hne h).1

theorem minIn_fixed {idx unit hu D E} {e : SimpleEnc E} {w val h1 h2 h3 h4 h5} :
    (simpleEntry idx unit hu (SimpleDec.fixed D w unit val h1 h2 h3 h4 h5) e).MinIn w := by
  refine minIn_simple ?_
  intro s wc n _ h
  simp only [SimpleDec.fixed] at h
  split at h
  · cases h
  · split at h
    · cases h; exact Nat.le_refl _
    · cases h

theorem minIn_utf16 {u : List Byte → Nat} {s : List Byte} {wc n : Nat} (h : utf16Item u s = .char wc n) :
    2 ≤ n := by
  unfold utf16Item at h
  repeat' split at h
  all_goals simp only [MbRet.char.injEq, reduceCtorEq] at h
  all_goals omega

theorem minIn_mark {A : Entry} {unit kind} (hat : A.atom = markAtom unit kind) (hf : A.dec.flushwc = none)
    (hk : ∀ bo s wc n, kind bo s = .char wc n → unit ≤ n) : A.MinIn unit := by
  refine ⟨fun _ => 0, rfl, ?_, ?_, ?_⟩
  · intro is s wc n is' _ _ ha
    rw [hat] at ha
    exact hk _ _ _ _ (mark_char ha).2
  · intros; exact Nat.zero_le _
  · intro is _; simp [Decoder.kept, hf]

theorem maxOut_simple {B : Entry} (e : SimpleEnc B.enc) {K : Nat}
    (h : ∀ wc bs, e.enc wc = some bs → bs.length ≤ K) : B.MaxOut K 0 := by
  refine ⟨fun _ => 0, rfl, ?_, ?_⟩
  · intro os wc bs os' _ hf
    rw [e.full_eq] at hf
    cases hx : e.enc wc with
    | none => rw [hx] at hf; cases hf
    | some b => rw [hx] at hf; cases hf; exact h _ _ hx
  · intro os _
    rw [e.tail_eq os]; simp

theorem maxOut_bom {B : Entry} (e : BomEnc B.enc) {K T : Nat} (hT : e.bom.length = T)
    (h : ∀ wc bs, e.enc wc = some bs → bs.length ≤ K) : B.MaxOut K T := by
  refine ⟨fun os => if os = 0 then T else 0, rfl, ?_, ?_⟩
  · intro os wc bs os' _ hf
    rw [e.full_eq] at hf
    cases hx : e.enc wc with
    | none => rw [hx] at hf; cases hf
    | some b =>
      rw [hx] at hf; cases hf
      have := h _ _ hx
      simp only [bomPre, List.length_append]
      split <;> simp <;> omega
  · intro os _
    have : B.enc.tail os = [] := by unfold Encoder.tail; rw [e.reset]
    rw [this]; simp

/-- Least number of input bytes per character. -/
def inBounds : List (Entry × Nat) :=
  [(ascii_entry, 1), (iso8859_1_entry, 1), (utf8_entry, 1), (ucs2_entry, 2), (ucs2be_entry, 2),
    (ucs2le_entry, 2), (ucs2internal_entry, 2), (ucs2swapped_entry, 2), (utf16_entry, 2),
    (utf16be_entry, 2), (utf16le_entry, 2), (ucs4_entry, 4), (ucs4be_entry, 4), (ucs4le_entry, 4),
    (ucs4internal_entry, 4), (ucs4swapped_entry, 4), (utf32_entry, 4), (utf32be_entry, 4),
    (utf32le_entry, 4)]

/-- Greatest number of output bytes per character, and bytes for marks. -/
def outBounds : List (Entry × Nat × Nat) :=
  [(ascii_entry, 1, 0), (iso8859_1_entry, 1, 0), (utf8_entry, 4, 0), (ucs2_entry, 2, 0),
    (ucs2be_entry, 2, 0), (ucs2le_entry, 2, 0), (ucs2internal_entry, 2, 0), (ucs2swapped_entry, 2, 0),
    (utf16_entry, 4, 2), (utf16be_entry, 4, 0), (utf16le_entry, 4, 0), (ucs4_entry, 4, 0),
    (ucs4be_entry, 4, 0), (ucs4le_entry, 4, 0), (ucs4internal_entry, 4, 0), (ucs4swapped_entry, 4, 0),
    (utf32_entry, 4, 4), (utf32be_entry, 4, 0), (utf32le_entry, 4, 0)]

theorem inBounds_ok : ∀ x ∈ inBounds, x.1.MinIn x.2 := by
  unfold inBounds
  simp only [List.forall_mem_cons, List.not_mem_nil, false_implies, implies_true, and_true]
  refine ⟨minIn_one, minIn_one, minIn_one, minIn_mark ucs2_atom rfl ?_, minIn_fixed, minIn_fixed,
    minIn_fixed, minIn_fixed, minIn_mark utf16_atom rfl ?_, minIn_simple fun s wc n _ h => minIn_utf16 h,
    minIn_simple fun s wc n _ h => minIn_utf16 h, minIn_mark ucs4_atom rfl ?_, minIn_fixed, minIn_fixed,
    minIn_fixed, minIn_fixed, minIn_mark utf32_atom rfl ?_, minIn_fixed, minIn_fixed⟩
  · intro bo s wc n h
    unfold ucs2Kind at h
    repeat' split at h
    all_goals simp only [MarkItem.char.injEq, reduceCtorEq] at h
    all_goals omega
  · intro bo s wc n h
    unfold utf16Kind at h
    repeat' split at h
    all_goals simp only [MarkItem.char.injEq, reduceCtorEq] at h
    all_goals omega
  · intro bo s wc n h
    unfold ucs4Kind at h
    repeat' split at h
    all_goals simp only [MarkItem.char.injEq, reduceCtorEq] at h
    all_goals omega
  · intro bo s wc n h
    unfold utf32Kind at h
    repeat' split at h
    all_goals simp only [MarkItem.char.injEq, reduceCtorEq] at h
    all_goals omega

theorem ite_len {P : Prop} [Decidable P] {f bs : List Byte} {K : Nat} (hf : f.length ≤ K)
    (h : (if P then some f else none) = some bs) : bs.length ≤ K := by
  split at h <;> cases h; exact hf

theorem utf16Enc_len {put : Nat → List Byte} (h : ∀ w, (put w).length = 2) (wc : Nat) :
    (utf16Enc put wc).length ≤ 4 := by
  unfold utf16Enc
  split
  · rw [h]; omega
  · rw [List.length_append, h, h]; omega

theorem utf8Enc_len (wc : Nat) : (utf8Enc wc).length ≤ 4 := by
  unfold utf8Enc
  repeat' split
  all_goals simp

theorem outBounds_ok : ∀ x ∈ outBounds, x.1.MaxOut x.2.1 x.2.2 := by
  unfold outBounds
  simp only [List.forall_mem_cons, List.not_mem_nil, false_implies, implies_true, and_true]
  refine ⟨maxOut_simple ascii_senc fun _ _ h => ite_len (by simp) h,
    maxOut_simple iso8859_1_senc fun _ _ h => ite_len (by simp) h,
    maxOut_simple utf8_senc fun _ _ h => ite_len (utf8Enc_len _) h,
    maxOut_simple ucs2_senc fun _ _ h => ite_len (by simp [b16]) h,
    maxOut_simple ucs2be_senc fun _ _ h => ite_len (by simp [b16]) h,
    maxOut_simple ucs2le_senc fun _ _ h => ite_len (by simp [l16]) h,
    maxOut_simple ucs2internal_senc fun _ _ h => ite_len (by simp [l16]) h,
    maxOut_simple ucs2swapped_senc fun _ _ h => ite_len (by simp [b16]) h,
    maxOut_bom utf16_benc rfl fun _ _ h => ite_len (utf16Enc_len (by simp [b16]) _) h,
    maxOut_simple utf16be_senc fun _ _ h => ite_len (utf16Enc_len (by simp [b16]) _) h,
    maxOut_simple utf16le_senc fun _ _ h => ite_len (utf16Enc_len (by simp [l16]) _) h,
    maxOut_simple ucs4_senc fun _ _ h => ite_len (by simp [b32]) h,
    maxOut_simple ucs4be_senc fun _ _ h => by cases h; simp [b32],
    maxOut_simple ucs4le_senc fun _ _ h => by cases h; simp [l32],
    maxOut_simple ucs4internal_senc fun _ _ h => by cases h; simp [l32],
    maxOut_simple ucs4swapped_senc fun _ _ h => by cases h; simp [l32],
    maxOut_bom utf32_benc rfl fun _ _ h => ite_len (by simp [b32]) h,
    maxOut_simple utf32be_senc fun _ _ h => ite_len (by simp [b32]) h,
    maxOut_simple utf32le_senc fun _ _ h => ite_len (by simp [l32]) h⟩

theorem sbRows_bounds : ∀ r ∈ sbRows, r.entry.MinIn 1 ∧ r.entry.MaxOut 1 0 := by
  intro r hr
  obtain ⟨e, h, hu, he, _⟩ := sbRows_ok r hr
  rw [he]
  refine ⟨minIn_one, maxOut_simple (B := sbEntry e h hu) (e.senc h) fun wc bs hb => ?_⟩
  have hb : (e.encode wc).map (fun b => [u8 b]) = some bs := hb
  cases hx : e.encode wc with
  | none => rw [hx] at hb; cases hb
  | some b => rw [hx] at hb; cases hb; simp

/-- C46 with the figures. `u` is 1 for single-byte encodings and UTF-8, 2 for UCS-2 and UTF-16, 4 for
UCS-4 and UTF-32; `K` is 1 for single-byte encodings, 2 for UCS-2, and 4 otherwise; `T` is the length of
the byte order mark of UTF-16 and UTF-32. So, for example, converting `n` bytes from a single-byte
encoding to UTF-8 gives at most `4 n` bytes, and from UTF-16 to UTF-8 at most `2 n`. -/
theorem C46_figures (discard : Bool) :
    ∀ a ∈ inBounds ++ sbRows.map (fun r => (r.entry, 1)),
    ∀ b ∈ outBounds ++ sbRows.map (fun r => (r.entry, 1, 0)),
    ∀ inp alloc r, convert (a.1.conv b.1 discard) St.init inp true true alloc = .ok r →
      ∀ n, r.outLen = some n → a.2 * n ≤ b.2.1 * inp.length + a.2 * b.2.2 := by
  intro a ha b hb
  have h1 : a.1.MinIn a.2 := by
    rcases List.mem_append.1 ha with ha | ha
    · exact inBounds_ok a ha
    · obtain ⟨r, hr, rfl⟩ := List.mem_map.1 ha
      exact (sbRows_bounds r hr).1
  have h2 : b.1.MaxOut b.2.1 b.2.2 := by
    rcases List.mem_append.1 hb with hb | hb
    · exact outBounds_ok b hb
    · obtain ⟨r, hr, rfl⟩ := List.mem_map.1 hb
      exact (sbRows_bounds r hr).2
  exact (C46_output_bound a.1 b.1 discard h1 h2).2.1

/-- The bound is reached: one byte, three bytes of UTF-8; two bytes, six with the mark. -/
example : (convert (cp1252_entry.conv utf8_entry false) St.init [0x80] true true
    (fun n => some (List.replicate n 0))).bind (fun r => .ok r.outLen) = .ok (some 3) := by
  decide +kernel
example : (convert (utf8_entry.conv utf16_entry false) St.init [0x41, 0x42] true true
    (fun n => some (List.replicate n 0))).bind (fun r => .ok r.outLen) = .ok (some 6) := by
  decide +kernel

end Reiconv
