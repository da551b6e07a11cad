import Verif.DiscardKinds
import Verif.Short
import Verif.Props.Lossy

/-!
# C67: with discarding on, invalid input leaves no trace

`Clean` (`Verif/Discard.lean`) says which bytes of an input are kept, in terms of `Entry.Text` alone, the relation that says
which byte sequences are texts of an encoding. The conversion of an input with invalid sequences is the conversion of the
bytes that are kept.
-/

namespace Reiconv

namespace Skip

theorem writeAll_discard {B : Entry} (cs : List Nat) : ∀ os, ∃ x, writeAll (encChar B.enc true) os cs = some x := by
  induction cs with
  | nil => intro os; exact ⟨_, rfl⟩
  | cons c cs ih =>
    intro os
    have he : ∃ y, encChar B.enc true os c = some y := by
      unfold encChar
      cases B.enc.full os c with
      | some y => exact ⟨_, rfl⟩
      | none =>
        simp only
        split
        · exact ⟨_, rfl⟩
        · exact ⟨_, rfl⟩
    obtain ⟨⟨b, os1, i⟩, he⟩ := he
    obtain ⟨⟨r, os2, j⟩, hr⟩ := ih os1
    simp only [writeAll, he, hr]
    exact ⟨_, rfl⟩

/-- What is left over at the end is an incomplete sequence. -/
theorem reads_left {A : Entry} {N : Nat} (hs : Short N A) (hN : 1 ≤ N) {x : List Byte} {is is' : IState} {inp : List Byte}
    {cs : List Nat} (h : Reads A x is inp cs is') : A.decOK.Inv is → x.length < N := by
  induction h with
  | nil ha =>
    intro hI
    rcases ha with rfl | ha
    · exact hN
    · exact Nat.lt_of_not_le fun hl => hs _ _ hI hl hN ha
  | skip _ _ _ ih => exact ih
  | char hne ha _ ih => exact fun hI => ih (A.decOK.char_ok _ _ _ _ _ hI hne ha).1
  | shift hne ha _ ih => exact fun hI => ih (A.decOK.shift_ok _ _ _ _ hI hne ha).1

theorem cut_fails {A : Entry} {x inp : List Byte} {cs : List Nat} {is : IState} (hx : x ≠ []) (h : Reads A x IState.init inp cs is)
    (B : Entry) : ∃ s, resultSize (A.conv B true) St.init inp = .ok (.error .EILSEQ, s) := by
  obtain ⟨sz, s1, h1, _, _, ⟨n, out, irr, rfl, hw, _⟩ | ⟨rfl, _⟩⟩ := size_whole A B true inp
  · obtain ⟨o, i, s', fo, fi, hr, _⟩ := hw
    exact absurd hr (cut_whole hx h _ _ _ _)
  · exact ⟨s1, h1⟩

/-- C67: for every source encoding but C99, JAVA and UTF-7 and every input there are the bytes `k` that are kept and the end `x`
of the input that is left over. What is left over is shorter than the longest sequence of the encoding. If nothing is left
over then the bytes kept are a text, and converting the input with discarding is converting this text: the same bytes are
written, and as many characters are counted as lost. If something is left over then the input is an error. -/
theorem _root_.Reiconv.C67_skip_partial {A : Entry} (hA : A ∈ sources) (hl : A.idx ∉ lookIdx) (inp : List Byte) :
    ∃ x k, Clean A x [] inp k ∧ x.length < longest A.idx ∧
      (x = [] → (∃ cs, A.Text k cs) ∧ ∀ B : Entry, ∃ out irr, Whole A.atom (A.conv B true) St.init inp out irr ∧
        Whole A.atom (A.conv B true) St.init k out irr) ∧
      (x ≠ [] → ∀ B : Entry, ∃ s, resultSize (A.conv B true) St.init inp = .ok (.error .EILSEQ, s)) := by
  obtain ⟨x, cs, is, h⟩ := reads_total A inp
  obtain ⟨k, h1, h2⟩ := reads_clean (local_sources A hA hl) h [] [] (.inl (.nil _))
  refine ⟨x, k, h1, reads_left (fits_sources A hA) (longest_pos _) h A.decOK.inv_init, ?_, fun hx => cut_fails hx h⟩
  rintro rfl
  have h3 : A.Text k (cs ++ A.dec.kept is) := by simpa using h2 rfl
  refine ⟨⟨_, h3⟩, fun B => ?_⟩
  obtain ⟨⟨bs, os, irr⟩, hw⟩ := writeAll_discard (B := B) (cs ++ A.dec.kept is) 0
  exact ⟨_, irr, (whole_of_reads h _ _).2 ⟨bs, os, hw, rfl⟩, (whole_iff_write h3 _ _).2 ⟨bs, os, hw, rfl⟩⟩

/-- C67 at the API: the bytes that are kept, the text they are, and what is written for it. `reiconv_result_size` returns the
number of bytes, and `reiconv_convert_static_size` writes them into a buffer that has 64 bytes more; they are what is written
for the text in the sense of C66. -/
theorem _root_.Reiconv.C67_api_partial {A B : Entry} (hA : A ∈ sources) (hl : A.idx ∉ lookIdx) (hB : B ∈ targets) (hj : B.idx ≠ ei_iso2022_jp2)
    (inp : List Byte) :
    (∃ k cs ds irr out, Clean A [] [] inp k ∧ A.Text k cs ∧ Lossy.Shown B true [] cs ds irr ∧ B.Encodes ds out ∧
      (∃ s, resultSize (A.conv B true) St.init inp = .ok (.ok out.length, s)) ∧
      ∀ room : List Byte, out.length + 64 ≤ room.length → ∃ s b,
        convertStatic (A.conv B true) St.init inp ⟨false, [], room⟩ = .ok (.ok (), s, b) ∧ b.out = out) ∨
    (∃ x k, x ≠ [] ∧ x.length < longest A.idx ∧ Clean A x [] inp k ∧
      ∃ s, resultSize (A.conv B true) St.init inp = .ok (.error .EILSEQ, s)) := by
  obtain ⟨x, k, h1, h2, h3, h4⟩ := C67_skip_partial hA hl inp
  by_cases hx : x = []
  · subst hx
    obtain ⟨⟨cs, hT⟩, h5⟩ := h3 rfl
    obtain ⟨out, irr, hw, hk⟩ := h5 B
    obtain ⟨ds, hs, he⟩ := (C66_writes A hB hj true k cs hT out irr).1 hk
    refine .inl ⟨k, cs, ds, irr, out, h1, hT, hs, he, ?_, fun room hroom => ?_⟩
    · obtain ⟨sz, s1, h6, _, _, ⟨n, o, i, rfl, hw', rfl, _⟩ | ⟨_, hno⟩⟩ := size_whole A B true inp
      · obtain ⟨rfl, _⟩ := whole_det hw hw'
        exact ⟨s1, h6⟩
      · exact absurd hw (hno _ _)
    · obtain ⟨ret, s2, b, hx, hl, h5⟩ := static_whole A B true St.init A.decOK.inv_init
        B.encOK.inv_init inp room hw (.inl (by omega))
      rcases h5 with ⟨rfl, h5, _⟩ | ⟨_, h5, ⟨rest, h6⟩, _⟩
      · exact ⟨s2, b, hx, h5⟩
      · rw [h6, List.length_append] at hroom
        omega
  · exact .inr ⟨x, k, hx, h2, h1, h4 hx B⟩

/-- The bytes that are kept are determined, if nothing is left over. -/
theorem _root_.Reiconv.C67_unique {A : Entry} {inp k k' : List Byte} (h : Clean A [] [] inp k) (h' : Clean A [] [] inp k') : k = k' :=
  clean_det h h'

/-- A text is kept as it is. -/
theorem _root_.Reiconv.C67_text {A : Entry} {x : List Byte} : ∀ (n : Nat) (r k : List Byte), r.length ≤ n → Readable A (k ++ r) →
    (∀ p y, p ++ y = x → p ≠ [] → ¬ Readable A (k ++ r ++ p)) → Clean A x k (r ++ x) (k ++ r) := by
  intro n
  induction n with
  | zero =>
    intro r k hn hr hx
    obtain rfl := List.eq_nil_of_length_eq_zero (Nat.le_zero.1 hn)
    rw [List.append_nil] at hx ⊢
    exact .done hx
  | succ n ih =>
    intro r k hn hr hx
    by_cases h0 : r = []
    · subst h0
      rw [List.append_nil] at hx ⊢
      exact .done hx
    -- the shortest beginning that can be read
    obtain ⟨p, y, e, hp, hrp, hm⟩ : ∃ p y, r = p ++ y ∧ p ≠ [] ∧ Readable A (k ++ p) ∧
        ∀ q z, p = q ++ z → q ≠ [] → z ≠ [] → ¬ Readable A (k ++ q) := by
      have key : ∀ m p y, p.length ≤ m → r = p ++ y → p ≠ [] → Readable A (k ++ p) → ∃ p y, r = p ++ y ∧ p ≠ [] ∧
          Readable A (k ++ p) ∧ ∀ q z, p = q ++ z → q ≠ [] → z ≠ [] → ¬ Readable A (k ++ q) := by
        intro m
        induction m with
        | zero => intro p y h _ hp _; exact absurd (List.eq_nil_of_length_eq_zero (Nat.le_zero.1 h)) hp
        | succ m ih =>
          intro p y h e hp hr
          by_cases hq : ∃ q z, p = q ++ z ∧ q ≠ [] ∧ z ≠ [] ∧ Readable A (k ++ q)
          · obtain ⟨q, z, rfl, hq, hz, hrq⟩ := hq
            have : z.length ≠ 0 := by simpa using hz
            rw [List.length_append] at h
            exact ih q (z ++ y) (by omega) (by rw [e, List.append_assoc]) hq hrq
          · exact ⟨p, y, e, hp, hr, fun q z h1 h2 h3 h4 => hq ⟨q, z, h1, h2, h3, h4⟩⟩
      exact key _ r [] (Nat.le_refl _) (List.append_nil _).symm h0 hr
    subst e
    have hlen : p.length ≠ 0 := by simpa using hp
    rw [List.length_append] at hn
    have := ih y (k ++ p) (by omega) (by rw [List.append_assoc]; exact hr) (by rw [List.append_assoc]; exact hx)
    rw [List.append_assoc] at this ⊢
    exact .keep hp hrp hm this

/-! ## Three encodings whose converters look ahead -/

/-- No input is invalid. -/
def NoIl : M MbRet → Prop
  | .ret (.char _ _) => True
  | .ret _ => False
  | .ub => True
  | .abort => True
  | .need _ m => NoIl m
  | .byte _ f => ∀ b, NoIl (f b)

theorem noIl_escLoop {f : Nat → M MbRet} {bs : M MbRet} (hf : ∀ wc, NoIl (f wc)) (hb : NoIl bs) :
    ∀ k i wc, NoIl (escLoop f bs i k wc) := by
  intro k
  induction k with
  | zero => intro i wc; exact hf wc
  | succ k ih =>
    intro i wc
    unfold escLoop
    intro c
    simp only
    cases escDigit c with
    | some d => exact ih _ _
    | none => exact hb

theorem noIl_ite {p : Prop} [Decidable p] {a b : M MbRet} (ha : NoIl a) (hb : NoIl b) : NoIl (if p then a else b) := by
  split <;> assumption

theorem noIl_java : NoIl java_mbtowc := by
  have hb : NoIl simplyBackslash := trivial
  have hc : ∀ wc n, NoIl (.ret (.char wc n)) := fun _ _ => trivial
  unfold java_mbtowc
  intro c
  refine noIl_ite (hc _ _) ?_
  intro c
  refine noIl_ite hb (noIl_escLoop (fun wc => ?_) hb _ _ _)
  refine noIl_ite (hc _ _) (noIl_ite hb ?_)
  intro c
  refine noIl_ite hb ?_
  intro c
  refine noIl_ite hb (noIl_escLoop (fun wc => ?_) hb _ _ _)
  exact noIl_ite hb (hc _ _)

theorem noIl_run : ∀ (m : M MbRet) (s : List Byte) (r : MbRet), NoIl m → m.run s = .ok (some r) → ∃ wc n, r = .char wc n := by
  intro m s r
  induction m with
  | ret x =>
    intro h h'
    cases h'
    cases r with
    | char wc n => exact ⟨_, _, rfl⟩
    | ilseq _ => exact h.elim
    | toofew _ => exact h.elim
  | ub => intro _ h; cases h
  | abort => intro _ h; cases h
  | need n m ih =>
    intro h h'
    simp only [M.run] at h'
    split at h'
    · first | cases h' | exact ih h h'
    · first | exact ih h h' | cases h'
  | byte i f ih =>
    intro h h'
    simp only [M.run] at h'
    split at h'
    · exact ih _ (h _) h'
    · cases h'

theorem java_valid (is : IState) (s : List Byte) (hs : s ≠ []) : java_entry.atom is s ≠ .ilseq := by
  intro ha
  have ha : atomOf (M.val java_mbtowc) is s = .ilseq := ha
  have hl : 1 ≤ s.length := by
    cases s with
    | nil => exact absurd rfl hs
    | cons b s => simp
  obtain ⟨o, h1, h2⟩ := M.good_run java_mbtowc 1 s java_good hl
  unfold atomOf M.val at ha
  rw [h1] at ha
  cases o with
  | none => simp at ha
  | some r =>
    obtain ⟨wc, n, rfl⟩ := noIl_run _ _ _ noIl_java h1
    simp at ha

theorem java_reads {is is' : IState} {inp : List Byte} {cs : List Nat} {x : List Byte} (h : Reads java_entry x is inp cs is')
    (hx : x = []) : Chars java_entry.atom is inp cs is' := by
  induction h with
  | nil => subst hx; exact .nil _
  | skip hne ha _ _ => exact absurd ha (java_valid _ _ hne)
  | char hne ha _ ih => exact .char hne ha ih
  | shift hne ha _ ih => exact .shift hne ha ih

/-- C67 for JAVA: no input is invalid. It is a text, or it ends in an incomplete sequence and is an error. -/
theorem _root_.Reiconv.C67_java (inp : List Byte) : (∃ cs, java_entry.Text inp cs) ∨
    ∀ B : Entry, ∃ s, resultSize (java_entry.conv B true) St.init inp = .ok (.error .EILSEQ, s) := by
  obtain ⟨x, cs, is, h⟩ := reads_total java_entry inp
  by_cases hx : x = []
  · exact .inl ⟨_, cs, is, java_reads h hx, rfl⟩
  · exact .inr (cut_fails hx h)

/-- All ways to remove bytes. -/
def subs : List Byte → List (List Byte)
  | [] => [[]]
  | b :: l => (subs l).map (b :: ·) ++ subs l

theorem mem_subs {k l : List Byte} (h : k.Sublist l) : k ∈ subs l := by
  induction h with
  | slnil => simp [subs]
  | cons a _ ih => exact List.mem_append_right _ ih
  | cons_cons a _ ih => exact List.mem_append_left _ (List.mem_map_of_mem ih)

/-- Whether the conversion of `k` writes `out`. -/
def writes (A B : Entry) (k out : List Byte) : Bool :=
  match convertStatic (A.conv B false) St.init k ⟨false, [], List.replicate 100 0⟩ with
  | .ok (_, _, b) => b.out == out
  | _ => false

theorem whole_writes {A B : Entry} {k out : List Byte} {irr : Nat} (h : Whole A.atom (A.conv B false) St.init k out irr)
    (hl : out.length ≤ 36) : writes A B k out = true := by
  obtain ⟨ret, s2, b, hx, hlen, h5⟩ := static_whole A B false St.init A.decOK.inv_init
    B.encOK.inv_init k (List.replicate 100 0) h (.inl (by rw [List.length_replicate]; omega))
  unfold writes
  rw [hx]
  rcases h5 with ⟨rfl, h5, _⟩ | ⟨_, h5, ⟨rest, h6⟩, h7⟩
  · simpa using h5
  · exfalso
    have := congrArg List.length h6
    rw [List.length_append] at this
    rw [List.length_replicate] at hlen
    omega

/-- C67 is false for C99: a backslash, an invalid byte and `u00e9` become the six characters `é`. No bytes of the input
make a text that is converted to this. -/
theorem _root_.Reiconv.C67_c99_violation : (∃ irr, Whole c99_entry.atom (c99_entry.conv utf8_entry true) St.init
      [0x5c, 0xff, 0x75, 0x30, 0x30, 0x65, 0x39] [0x5c, 0x75, 0x30, 0x30, 0x65, 0x39] irr) ∧
    ∀ k : List Byte, k.Sublist [0x5c, 0xff, 0x75, 0x30, 0x30, 0x65, 0x39] → ∀ irr,
      ¬ Whole c99_entry.atom (c99_entry.conv utf8_entry false) St.init k [0x5c, 0x75, 0x30, 0x30, 0x65, 0x39] irr := by
  constructor
  · have h : Reads c99_entry [] IState.init [0x5c, 0xff, 0x75, 0x30, 0x30, 0x65, 0x39] [0x5c, 0x75, 0x30, 0x30, 0x65, 0x39] IState.init :=
      .char (n := 1) (by decide) rfl <| .skip (by decide) rfl <| .char (n := 1) (by decide) rfl <| .char (n := 1) (by decide) rfl <|
        .char (n := 1) (by decide) rfl <| .char (n := 1) (by decide) rfl <| .char (n := 1) (by decide) rfl <| .nil (.inl rfl)
    exact ⟨0, (whole_of_reads h _ _).2 ⟨_, _, rfl, rfl⟩⟩
  · intro k hk irr hw
    have h1 : ∀ k ∈ subs [0x5c, 0xff, 0x75, 0x30, 0x30, 0x65, 0x39],
        writes c99_entry utf8_entry k [0x5c, 0x75, 0x30, 0x30, 0x65, 0x39] = false := by decide +kernel
    have h2 := whole_writes hw (by decide)
    rw [h1 k (mem_subs hk)] at h2
    cases h2

/-- If `q` is invalid then no text continues it. -/
theorem no_text {A : Entry} {is : IState} {q s ds is'} (hI : A.decOK.Inv is) (hq : q ≠ []) (ha : A.atom is q = .ilseq)
    (h : Chars A.atom is (q ++ s) ds is') : False := by
  have := A.decOK.ext is q s hI hq (by rw [show A.decOK.atom is q = _ from ha]; simp)
  rw [show A.decOK.atom is q = _ from ha] at this
  exact (chars_first h (by simp [hq])).2 this

theorem one_least {p q y : List Byte} {b : Byte} {P : Prop} (h : p = [b]) (e : p = q ++ y) (hq : q ≠ []) (hy : y ≠ []) : P := by
  have := congrArg List.length e
  rw [h, List.length_append] at this
  have h1 : q.length ≠ 0 := by simpa using hq
  have h2 : y.length ≠ 0 := by simpa using hy
  have h3 : [b].length = 1 := rfl
  omega

/-- C67 is false for UTF-7: `+A`, an invalid byte and `-` become `-`, although `+A` and the byte are not the beginning of any
text and so `A-` should be left. -/
theorem _root_.Reiconv.C67_utf7_violation : (∃ irr, Whole utf7_entry.atom (utf7_entry.conv ascii_entry true) St.init
      [0x2b, 0x41, 0xff, 0x2d] [0x2d] irr) ∧
    ∃ k : List Byte, Clean utf7_entry [] [] [0x2b, 0x41, 0xff, 0x2d] k ∧ ∃ irr,
      Whole utf7_entry.atom (utf7_entry.conv ascii_entry true) St.init k [0x41, 0x2d] irr := by
  have hA : Chars utf7_entry.atom IState.init [0x41] [0x41] IState.init := .char (n := 1) (by decide) rfl (.nil _)
  have hT : Chars utf7_entry.atom IState.init [0x41, 0x2d] [0x41, 0x2d] IState.init :=
    .char (n := 1) (by decide) rfl (.char (n := 1) (by decide) rfl (.nil _))
  have hI : utf7_entry.decOK.Inv ⟨0, 1⟩ :=
    (utf7_entry.decOK.shift_ok IState.init [0x2b, 0x41] 1 ⟨0, 1⟩ utf7_entry.decOK.inv_init (by simp) rfl).1
  have hS : ∀ p cs is, Chars utf7_entry.atom IState.init ([0x2b, 0x41] ++ p) cs is →
      ∃ ds, Chars utf7_entry.atom ⟨0, 1⟩ ([0x41] ++ p) ds is := by
    intro p cs is h
    have ha : utf7_entry.atom IState.init ([0x2b, 0x41] ++ p) = .shift 1 ⟨0, 1⟩ :=
      utf7_entry.decOK.ext IState.init [0x2b, 0x41] p utf7_entry.decOK.inv_init (by simp)
        (by rw [show utf7_entry.decOK.atom IState.init [0x2b, 0x41] = .shift 1 ⟨0, 1⟩ from rfl]; simp)
    generalize hz : ([0x2b, 0x41] ++ p : List Byte) = z at h ha
    cases h with
    | nil => cases hz
    | char _ ha' _ => rw [ha] at ha'; cases ha'
    | shift _ ha' h => rw [ha] at ha'; cases ha'; subst hz; exact ⟨_, h⟩
  constructor
  · have h : Reads utf7_entry [] IState.init [0x2b, 0x41, 0xff, 0x2d] [0x2d] IState.init :=
      .shift (n := 1) (is' := ⟨0, 1⟩) (by decide) rfl <| .skip (by decide) rfl <|
        .shift (n := 0) (is' := ⟨0, 0⟩) (by decide) rfl <| .skip (by decide) rfl <|
        .char (n := 1) (is' := ⟨0, 0⟩) (by decide) rfl <| .nil (.inl rfl)
    exact ⟨0, (whole_of_reads h _ _).2 ⟨_, _, rfl, rfl⟩⟩
  · refine ⟨([] ++ [0x41]) ++ [0x2d], ?_, 0, (whole_iff_write (A := utf7_entry) (B := ascii_entry) (discard := true) ⟨_, _, hT, rfl⟩ [0x41, 0x2d] 0).2
      ⟨[0x41, 0x2d], 0, rfl, rfl⟩⟩
    show Clean utf7_entry [] [] ([0x2b] ++ ([0x41] ++ ([0xff] ++ ([0x2d] ++ [])))) _
    refine .drop rfl (by simp) ?_ (.keep (by simp) ⟨_, _, _, hA, rfl⟩ (fun q y e hq hy => one_least rfl e hq hy)
      (.drop rfl (by simp) ?_ (.keep (by simp) ⟨_, _, _, hT, rfl⟩ (fun q y e hq hy => one_least rfl e hq hy) (.done ?_))))
    · rintro p t y e hp ⟨_, cs, is, h, _⟩
      have h : Chars utf7_entry.atom IState.init p cs is := h
      match p, e with
      | [a], e =>
        obtain ⟨rfl, _⟩ := List.cons.inj e
        exact (chars_first h hp).1 rfl
      | [a, b], e =>
        simp only [List.cons_append, List.cons.injEq] at e
        obtain ⟨rfl, rfl, h3⟩ := e
        obtain ⟨ds, h⟩ := hS [] _ _ h
        exact (chars_first h (by simp)).1 rfl
      | a :: b :: c :: p, e =>
        have e1 := (List.cons.inj e).1
        have e2 := (List.cons.inj (List.cons.inj e).2).1
        have e3 := (List.cons.inj (List.cons.inj (List.cons.inj e).2).2).1
        subst e1 e2 e3
        obtain ⟨ds, h⟩ := hS _ _ _ h
        exact no_text hI (q := [0x41, 0xff]) (by simp) rfl h
    · rintro p t y e hp ⟨_, cs, is, h, _⟩
      match p, e with
      | a :: p, e =>
        obtain ⟨rfl, _⟩ := List.cons.inj e
        obtain ⟨ds, h⟩ := chars_split hA utf7_entry.decOK.inv_init h
        exact no_text utf7_entry.decOK.inv_init (q := [0xff]) (by simp) rfl h
    · intro p y h hp _
      exact hp (List.append_eq_nil_iff.1 h).1

/-! ## The hypotheses are met

EUC-JP to UTF-8: `a`, a byte that is never valid, あ, and あ with a wrong second byte, `b`. -/

theorem _root_.Reiconv.C67_example : Clean euc_jp_entry [] [] [0x61, 0xff, 0xa4, 0xa2, 0xa4, 0x62] [0x61, 0xa4, 0xa2, 0x62] ∧
    euc_jp_entry.Text [0x61, 0xa4, 0xa2, 0x62] [0x61, 0x3042, 0x62] ∧
    resultSize (euc_jp_entry.conv utf8_entry true) St.init [0x61, 0xff, 0xa4, 0xa2, 0xa4, 0x62] = .ok (.ok 5, St.init) := by
  have h1 : Chars euc_jp_entry.atom IState.init ([] ++ [0x61]) [0x61] IState.init := .char (n := 1) (by decide) rfl (.nil _)
  have a2 : euc_jp_entry.atom IState.init [0xa4, 0xa2, 0xa4, 0x62] = .char 0x3042 2 IState.init := by decide +kernel
  have h2 : Chars euc_jp_entry.atom IState.init ([] ++ [0x61] ++ [0xa4, 0xa2]) [0x61, 0x3042] IState.init :=
    .char (n := 1) (by decide) rfl (.char (n := 2) (by decide) (by decide +kernel) (.nil _))
  have h3 : Chars euc_jp_entry.atom IState.init ([] ++ [0x61] ++ [0xa4, 0xa2] ++ [0x62]) [0x61, 0x3042, 0x62] IState.init :=
    .char (n := 1) (by decide) rfl (.char (n := 2) (by decide) (by decide +kernel) (.char (n := 1) (by decide) rfl (.nil _)))
  refine ⟨?_, ⟨_, _, h3, rfl⟩, by decide +kernel⟩
  show Clean euc_jp_entry [] [] ([0x61] ++ ([0xff] ++ ([0xa4, 0xa2] ++ ([0xa4] ++ ([0x62] ++ [])))))
    ([] ++ [0x61] ++ [0xa4, 0xa2] ++ [0x62])
  refine .keep (by simp) ⟨_, _, _, h1, rfl⟩ (fun q y e hq hy => one_least rfl e hq hy) <|
    .drop rfl (by simp) (At.drop (.inl h1) (s := [0xff, 0xa4, 0xa2, 0xa4, 0x62]) (by simp) (by decide +kernel)).1 <|
    .keep (by simp) ⟨_, _, _, h2, rfl⟩ (At.least (.inl h1) (s := [0xa4, 0xa2, 0xa4, 0x62]) (n := 2) (by simp) (by decide)
      (by rw [a2]; simp) (.inl ⟨_, _, a2⟩)) <|
    .drop rfl (by simp) (At.drop (.inl h2) (s := [0xa4, 0x62]) (by simp) (by decide +kernel)).1 <|
    .keep (by simp) ⟨_, _, _, h3, rfl⟩ (fun q y e hq hy => one_least rfl e hq hy) <| .done fun p y h hp _ => ?_
  exact hp (List.append_eq_nil_iff.1 h).1

/-- Something is left over: the first byte of a character in EUC-JP. -/
theorem _root_.Reiconv.C67_example_left : Clean euc_jp_entry [0xa4] [] [0x61, 0xa4] [0x61] ∧
    resultSize (euc_jp_entry.conv utf8_entry true) St.init [0x61, 0xa4] = .ok (.error .EILSEQ, St.init) := by
  have h1 : Chars euc_jp_entry.atom IState.init ([] ++ [0x61]) [0x61] IState.init := .char (n := 1) (by decide) rfl (.nil _)
  refine ⟨?_, by decide +kernel⟩
  show Clean euc_jp_entry [0xa4] [] ([0x61] ++ [0xa4]) ([] ++ [0x61])
  exact .keep (by simp) ⟨_, _, _, h1, rfl⟩ (fun q y e hq hy => one_least rfl e hq hy) <|
    .done (At.more (.inl h1) (.inr (by decide +kernel)))

example : euc_jp_entry ∈ sources ∧ euc_jp_entry.idx ∉ lookIdx := by
  exact ⟨List.mem_cons_of_mem _ (List.mem_of_getElem? (i := 21) rfl), by decide⟩

end Skip

end Reiconv
