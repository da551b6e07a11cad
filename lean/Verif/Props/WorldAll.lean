import Verif.Props.World
import Verif.Props.Registry

/-!
# C50, C51 for the registered encodings
-/

namespace Reiconv

/-- The functions in a descriptor from encoding number `i` to number `o`: `all_encodings[i].ifuncs`,
`all_encodings[o].ofuncs` (`lib/iconv.c:99-102`). Outside of the array, where `reiconv_open_from_index` has undefined
behaviour, the value does not matter. -/
noncomputable def library (i o : Nat) (discard : Bool) : Conv :=
  match sources.find? (·.idx == i), targets.find? (·.idx == o) with
  | some A, some B => A.conv B discard
  | some A, none => toGb18030_2005 A discard
  | none, _ => toGb18030_2005 gb18030_2005_source discard

theorem find_idx {l : List Entry} {A : Entry} (hl : ∀ x ∈ l, ∀ y ∈ l, x.idx = y.idx → x = y) (hA : A ∈ l) :
    l.find? (·.idx == A.idx) = some A := by
  cases h : l.find? (·.idx == A.idx) with
  | none => exact absurd (List.find?_eq_none.1 h A hA) (by simp)
  | some x =>
    have h1 := List.mem_of_find?_eq_some h
    have h2 := List.find?_some h
    rw [hl x h1 A hA (by simpa using h2)]

theorem library_eq {A B : Entry} (hA : A ∈ sources) (hB : B ∈ targets) (discard : Bool) :
    library A.idx B.idx discard = A.conv B discard := by
  unfold library
  rw [find_idx sources_unique hA, find_idx (fun x hx y hy => sources_unique x (List.mem_cons_of_mem _ hx) y (List.mem_cons_of_mem _ hy)) hB]

/-- C51 for registered encodings: the replies to the calls on a descriptor from `A` to `B` are those of a new descriptor,
whatever is done with other descriptors in between. -/
theorem C51_registered {A B : Entry} (hA : A ∈ sources) (hB : B ∈ targets) {t t' : List (ApiCall × ApiReply)} {w : World}
    {held : List Nat} {flags x : Nat}
    (h : Trace library World.start [] (t ++ (.open (A.idx : Nat) (B.idx : Nat) flags x, .opened (.ok x)) :: t') w held)
    (hc : ∀ y ∈ t', y.1 ≠ .close x) :
    replies (A.conv B (Nat.testBit flags 0)) St.init (callsOn x t') = .ok (repliesOn x t') := by
  rw [← library_eq hA hB]
  exact C51_independent h hc

/-- Two descriptors, UTF-8 to ISO-2022-JP at address 1 and ISO-2022-JP to UTF-8 at address 2. The first converts a part
of "ああ", the second a text of its own, the first the rest of its text. -/
noncomputable def twoConversions : List ApiCall := [
  .open ei_utf8 ei_iso2022_jp 0 1,
  .open ei_iso2022_jp ei_utf8 0 2,
  .on 1 (.iconv (some [0xe3, 0x81, 0x82]) (some ⟨false, [], [0, 0, 0, 0, 0, 0, 0, 0]⟩)),
  .on 2 (.convert [0x1b, 0x24, 0x42, 0x24, 0x22, 0x1b, 0x28, 0x42] (some 0) true (fun n => some ⟨3, List.replicate n 0⟩)),
  .on 1 (.iconv (some [0xe3, 0x81, 0x82]) (some ⟨false, [], [0, 0, 0, 0, 0, 0, 0, 0]⟩)),
  .on 2 (.convert [0x41] (some 0) true (fun n => some ⟨4, List.replicate n 0⟩)),
  .close 2,
  .release 0,
  .close 1]

/-- Run a program. -/
def runAll (lib : Nat → Nat → Bool → Conv) (w : World) : List ApiCall → Outcome (List ApiReply)
  | [] => .ok []
  | k :: ks => do
    let (a, w) ← step lib w k
    let as ← runAll lib w ks
    .ok (a :: as)

/-- The bytes a program gets. -/
def bytesOf : ApiReply → List Byte
  | .on (.iconv _ _ b) => b.out
  | .on (.convert _ _ (some bs)) => bs
  | _ => []

example : (match runAll library World.start twoConversions with | .ok l => some (l.map bytesOf) | _ => none) =
    some [[], [], [0x1b, 0x24, 0x42, 0x24, 0x22], [0xe3, 0x81, 0x82], [0x24, 0x22], [0x41], [], [], []] := by
  decide +kernel

/-- The reply and the memory after a call that returns. -/
noncomputable def stepA (lib : Nat → Nat → Bool → Conv) (w : World) (k : ApiCall) : ApiReply × World :=
  match step lib w k with
  | .ok x => x
  | _ => (.released, w)

/-- A program satisfies the conditions of `Trace`. -/
def Legal (lib : Nat → Nat → Bool → Conv) : World → List Nat → List ApiCall → Prop
  | _, _, [] => True
  | w, held, k :: ks => k.Uses held ∧ k.Allocates w ∧ (step lib w k).isOk = true ∧
      Legal lib (stepA lib w k).2 (heldAfter held k (stepA lib w k).1) ks

theorem Legal.trace {lib : Nat → Nat → Bool → Conv} : ∀ (ks : List ApiCall) (w : World) (held : List Nat), Legal lib w held ks →
    ∃ t w' held', t.map Prod.fst = ks ∧ Trace lib w held t w' held' := by
  intro ks
  induction ks with
  | nil => intro w held _; exact ⟨[], w, held, rfl, .nil _ _⟩
  | cons k ks ih =>
    intro w held h
    obtain ⟨h1, h2, h3, h4⟩ := h
    obtain ⟨t, w', held', h5, h6⟩ := ih _ _ h4
    refine ⟨(k, (stepA lib w k).1) :: t, w', held', by rw [List.map_cons, h5], .cons h1 h2 ?_ h6⟩
    unfold stepA
    cases hs : step lib w k with
    | ok x => rfl
    | _ => rw [hs] at h3; cases h3

theorem granted_of {w : World} {v a : Nat} (ha : (w.heap a).isNone = true) (h0 : a ≠ 0) (n : Nat) :
    (∀ g, some (⟨a, List.replicate n 0⟩ : Grant) = some g → Granted w (w.var v) n g) ∧
    (0 < n → some (⟨a, List.replicate n 0⟩ : Grant) ≠ none) := by
  refine ⟨?_, fun _ h => nomatch h⟩
  rintro g ⟨⟩
  exact ⟨h0, .inl (by simpa using ha), by simp⟩

/-- The program above satisfies the conditions of C50 and C51. -/
theorem twoConversions_legal : Legal library World.start [] twoConversions := by
  refine ⟨trivial, rfl, by decide +kernel, trivial, ?_, by decide +kernel, ?_, trivial, by decide +kernel,
    ?_, ?_, by decide +kernel, ?_, trivial, by decide +kernel, ?_, ?_, by decide +kernel,
    ?_, trivial, by decide +kernel, trivial, trivial, by decide +kernel, ?_, trivial, by decide +kernel, trivial⟩
  · show World.heap _ _ = none
    rw [← Option.isNone_iff_eq_none]; decide +kernel
  · show _ ∈ heldAfter _ _ _
    decide +kernel
  · show _ ∈ heldAfter _ _ _
    decide +kernel
  · exact granted_of (by decide +kernel) (by decide)
  · show _ ∈ heldAfter _ _ _
    decide +kernel
  · show _ ∈ heldAfter _ _ _
    decide +kernel
  · exact granted_of (by decide +kernel) (by decide)
  · show _ ∈ heldAfter _ _ _
    decide +kernel
  · show _ ∈ heldAfter _ _ _
    decide +kernel

example : ∃ t w held, t.map Prod.fst = twoConversions ∧ Trace library World.start [] t w held :=
  Legal.trace _ _ _ twoConversions_legal

/-- `reiconv_convert` does not look whether `malloc` succeeded: without memory for the result, it stores through a NULL
pointer; and the old block of `realloc` would be lost. The condition on memory in C50 cannot be dropped. -/
theorem C50_out_of_memory : ∀ inp : List Byte, inp ∈ [[0x41], [0xe3, 0x81, 0x82]] →
    (match step library ⟨setAt (fun _ => none) 1 (some (.desc ⟨ei_utf8, ei_utf8, false, St.init⟩)), fun _ => 0⟩
      (.on 1 (.convert inp (some 0) true (fun _ => none))) with | .ub => true | _ => false) = true := by
  decide +kernel

end Reiconv
