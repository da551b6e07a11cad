import Verif.Props.OneShot

/-!
# C59: the argument and return value rules of the documentation

`docs/c-api.md:363-485` and `include/cppp/reiconv.h.in:160-190` describe `reiconv_convert` and `reiconv_convert_static_size`.
-/

namespace Reiconv

/-- The `int` a one-shot function returns (`lib/iconv.c:254-265`, `lib/iconv.c:272-298`). -/
def returned : Except Errno Unit → Int
  | .ok () => 0
  | .error _ => -1

/-- C59, partial. `reiconv_convert` without a place for the buffer always fails, whatever the input, and there is no buffer; the
length is still stored if the size was determined. Missing: a missing place for the length is to fail as well
(`C59_null_length`), and `reiconv_convert_static_size` is to return the length (`C59_static_return`). -/
theorem C59_null_data_partial (A B : Entry) (discard : Bool) (inp : List Byte) (lenPtr : Bool) (alloc : Nat → Option (List Byte)) :
    ∃ r, convert (A.conv B discard) St.init inp false lenPtr alloc = .ok r ∧ returned r.ret = -1 ∧ r.data = none ∧
      ∀ n, r.outLen = some n → lenPtr = true ∧ ∃ out irr, Whole A.atom (A.conv B discard) St.init inp out irr ∧ n = out.length := by
  obtain ⟨sz, s1, h1, _, _, ⟨n, out, irr, rfl, hw, rfl, _⟩ | ⟨rfl, _⟩⟩ := size_whole A B discard inp
  · refine ⟨⟨.error .EINVAL, s1, if lenPtr then some out.length else none, none⟩, ?_, rfl, rfl, fun n hn => ?_⟩
    · simp only [convert, h1, Outcome.bind_ok, Bool.not_false, if_true]
    · cases lenPtr with
      | false => cases hn
      | true => cases hn; exact ⟨rfl, out, irr, hw, rfl⟩
  · refine ⟨⟨.error .EILSEQ, s1, none, none⟩, ?_, rfl, rfl, fun n hn => nomatch hn⟩
    simp only [convert, h1, Outcome.bind_ok]

/-- C59 is false: without a place for the length `reiconv_convert` does all it does with one, for every conversion, descriptor
state and input. It succeeds, and the caller gets a buffer of unknown length. -/
theorem C59_null_length (c : Conv) (s : St) (inp : List Byte) (dataPtr : Bool) (alloc : Nat → Option (List Byte)) :
    (convert c s inp dataPtr false alloc = .ub ↔ convert c s inp dataPtr true alloc = .ub) ∧
    (convert c s inp dataPtr false alloc = .diverge ↔ convert c s inp dataPtr true alloc = .diverge) ∧
    ∀ r, convert c s inp dataPtr true alloc = .ok r →
      convert c s inp dataPtr false alloc = .ok { r with outLen := none } := by
  unfold convert
  cases h1 : resultSize c s inp with
  | ub => simp
  | diverge => simp
  | abort => simp
  | ok x =>
    obtain ⟨sz, s1⟩ := x
    simp only [Outcome.bind_ok]
    cases sz with
    | error e => simp only [Outcome.ok.injEq, reduceCtorEq, true_and]; rintro r rfl; rfl
    | ok n =>
      simp only
      cases dataPtr with
      | false => simp
      | true =>
        simp only [Bool.not_true, Bool.false_eq_true, if_false]
        generalize convertStatic c s1 inp _ = y
        cases y with
        | ub => simp
        | diverge => simp
        | abort => simp
        | ok y =>
          obtain ⟨r, s2, b⟩ := y
          cases r <;> simp <;> rintro r rfl <;> rfl

/-- C59 is false: `reiconv_convert_static_size` does not return the length. For "é" from UTF-8 to UTF-16BE with room for two
bytes, two bytes are written and 0 is returned. -/
theorem C59_static_return :
    convertStatic (utf8_entry.conv utf16be_entry false) St.init [0xC3, 0xA9] ⟨false, [], [0, 0]⟩ =
      .ok (.ok (), St.init, ⟨false, [0x00, 0xE9], []⟩) ∧ returned (.ok ()) ≠ 2 := by
  decide +kernel

/-- Both cases of `C59_null_length`: "é" is converted although there is no place for the length, invalid input is not. -/
example : convert (utf8_entry.conv utf16be_entry false) St.init [0xC3, 0xA9] true false zeros =
      .ok ⟨.ok (), St.init, none, some [0x00, 0xE9]⟩ ∧
    convert (utf8_entry.conv utf16be_entry false) St.init [0xFF] true false zeros = .ok ⟨.error .EILSEQ, St.init, none, none⟩ := by
  decide +kernel

end Reiconv
