import Verif.Props.Single
import Verif.Codec.TableCheck

/-!
# Multibyte encodings given by a table

General facts for C28, C29, C42: what `TableOK` for the programs of an encoding means for texts.
-/

namespace Reiconv

/-- `inp` consists of pieces, each of them related to the corresponding character. -/
inductive Pieces (R : List Byte → Nat → Prop) : List Byte → List Nat → Prop
  | nil : Pieces R [] []
  | cons {b w inp cs} : R b w → Pieces R inp cs → Pieces R (b ++ inp) (w :: cs)

theorem Pieces.imp {R S : List Byte → Nat → Prop} {a cs} (h : Pieces R a cs)
    (hi : ∀ b w, w ∈ cs → R b w → S b w) : Pieces S a cs := by
  induction h with
  | nil => exact .nil
  | cons h1 _ ih =>
    exact .cons (hi _ _ (List.mem_cons_self ..) h1) (ih fun b w hw => hi b w (List.mem_cons_of_mem _ hw))

theorem Pieces.append {R : List Byte → Nat → Prop} {a cs b ds} (h : Pieces R a cs) (h2 : Pieces R b ds) :
    Pieces R (a ++ b) (cs ++ ds) := by
  induction h with
  | nil => exact h2
  | cons h1 _ ih => rw [List.append_assoc]; exact .cons h1 ih

theorem Pieces.all {R : List Byte → Nat → Prop} {a cs} (h : Pieces R a cs) :
    ∀ w ∈ cs, ∃ b, R b w := by
  induction h with
  | nil => simp
  | cons h1 _ ih => exact List.forall_mem_cons.2 ⟨⟨_, h1⟩, ih⟩

/-- A multibyte encoding with its published table and list of irreversible pairs. -/
structure MbRow where
  name : String
  entry : Entry
  table : List (List Byte × Nat)
  irr : List (List Byte × Nat)

/-- The pair is decoded. -/
def MbRow.From (r : MbRow) (b : List Byte) (w : Nat) : Prop := (b, w) ∈ r.table

/-- The pair is encoded: listed in the table or in the list of irreversible pairs, but not in both. -/
def MbRow.To (r : MbRow) (b : List Byte) (w : Nat) : Prop :=
  ((b, w) ∈ r.table ∧ (b, w) ∉ r.irr) ∨ ((b, w) ∉ r.table ∧ (b, w) ∈ r.irr)

/-- What is proved of each row. -/
structure MbRow.OK (r : MbRow) : Prop where
  fixed : r.entry.FixedOrder
  text : ∀ inp cs, r.entry.Text inp cs ↔ Pieces r.From inp cs
  encodes : ∀ cs out, r.entry.Encodes cs out ↔ Pieces r.To out cs
  small : ∀ p ∈ r.table, p.2 < 16777216

theorem mb_text {m : M MbRet} {w : Nat → W} {T irr : List (List Byte × Nat)} (h : TableOK m w T irr)
    (idx : Nat) (hu : unitOf idx = 1) (hg : M.Good M.RetOK 1 m) (v : Nat → W) (hwg : ∀ wc, W.Good 0 (v wc))
    (inp : List Byte) (cs : List Nat) :
    (simpleEntry idx 1 hu (M.simple m hg) (W.senc v hwg)).Text inp cs ↔ Pieces (fun b w => (b, w) ∈ T) inp cs := by
  rw [simple_text]
  constructor
  · generalize IState.init = is0
    have key : ∀ {is is' inp cs}, Chars (atomOf m.val) is inp cs is' →
        Pieces (fun b w => (b, w) ∈ T) inp cs := by
      intro is is' inp cs h1
      induction h1 with
      | nil => exact .nil
      | shift _ ha _ _ => exact absurd ha atomOf_shift
      | @char is inp wc n is' cs is'' hne ha _ ih =>
        have hgv : m.val inp = .char wc n := by
          unfold atomOf at ha
          split at ha
          · next heq => cases ha; exact heq
          · cases ha
          · cases ha
        have := (h.dec_iff inp wc n hne).1 hgv
        rw [← List.take_append_drop n inp]
        exact .cons this.2 ih
    exact key
  · intro hp
    induction hp with
    | nil => exact .nil _
    | @cons b wc inp cs h1 _ ih =>
      have h1 : (b, wc) ∈ T := h1
      have hbn : b ≠ [] := by
        rintro rfl
        have := (h.dec_iff [0] wc 0 (by simp)).2 ⟨by simp, by simpa using h1⟩
        exact absurd (M.val_len hg (by simp) this).1 (by omega)
      have hv := (h.dec_iff (b ++ inp) wc b.length (by simp [hbn])).2 ⟨by simp, by simpa using h1⟩
      refine .char (n := b.length) (is' := IState.init) (by simp [hbn]) ?_ ?_
      · show atomOf m.val _ _ = _
        unfold atomOf; rw [hv]
      · rw [List.drop_left]; exact ih

theorem mb_ok {m : M MbRet} {w : Nat → W} {T irr : List (List Byte × Nat)} (h : TableOK m w T irr)
    (name : String) (idx : Nat) (hu : unitOf idx = 1) (hg : M.Good M.RetOK 1 m) (hwg : ∀ wc, W.Good 0 (w wc)) :
    MbRow.OK ⟨name, simpleEntry idx 1 hu (M.simple m hg) (W.senc w hwg), T, irr⟩ where
  fixed := simple_fixed
  small := fun p hp => h.small p.1 p.2 hp
  text := mb_text h _ _ _ _ _
  encodes := by
    intro cs out
    rw [simple_encodes]
    induction cs generalizing out with
    | nil =>
      constructor
      · intro h; cases h; exact .nil
      · intro h; cases h; rfl
    | cons c cs ih =>
      rw [(W.senc w hwg).text_cons]
      constructor
      · rintro ⟨bs, r, h1, h2, rfl⟩
        exact .cons ((h.enc_iff c bs).1 h1) ((ih r).1 h2)
      · intro hp
        cases hp with
        | @cons b _ inp _ h1 h2 => exact ⟨b, inp, (h.enc_iff c b).2 h1, (ih inp).2 h2, rfl⟩

/-- The characters that occur in no irreversible pair. -/
def MbRow.Plain (r : MbRow) (w : Nat) : Prop := ∀ b, (b, w) ∉ r.irr

theorem MbRow.OK.round_trip {r : MbRow} (h : r.OK) {cs : List Nat} {s : List Byte}
    (hp : ∀ w ∈ cs, r.Plain w) : r.entry.Encodes cs s ↔ r.entry.Text s cs := by
  rw [h.text, h.encodes]
  constructor
  · intro h1
    refine h1.imp fun b w hw hb => ?_
    rcases hb with hb | hb
    · exact hb.1
    · exact absurd hb.2 (hp w hw b)
  · intro h1
    exact h1.imp fun b w hw hb => .inl ⟨hb, hp w hw b⟩

theorem MbRow.OK.exact {r : MbRow} (h : r.OK) (hi : r.irr = []) : r.entry.Exact := by
  have hp : ∀ w, r.Plain w := fun w b => by rw [hi]; simp
  intro inp cs
  rw [h.round_trip fun w _ => hp w]
  refine ⟨fun ht => ⟨ht, fun c hc => ?_⟩, fun ht => ht.1⟩
  obtain ⟨b, hb⟩ := ((h.text _ _).1 ht).all c hc
  have := h.small _ hb
  simp only at this; omega

theorem MbRow.OK.ascii {r : MbRow} (h : r.OK)
    (h1 : ∀ p ∈ asciiPairs, p ∈ r.table ∧ p ∉ r.irr) : r.entry.AsciiTransparent := by
  have h2 : ∀ b : Byte, b.toNat < 128 → ([b], b.toNat) ∈ r.table ∧ ([b], b.toNat) ∉ r.irr := by
    intro b hb
    apply h1
    unfold asciiPairs
    rw [List.mem_map]
    exact ⟨b.toNat, List.mem_range.2 hb, by simp [u8]⟩
  intro asc hasc
  have h3 : ∀ {R : List Byte → Nat → Prop}, (∀ b : Byte, b.toNat < 128 → R [b] b.toNat) →
      Pieces R asc (asc.map UInt8.toNat) := by
    intro R hR
    induction asc with
    | nil => exact .nil
    | cons b bs ih =>
      simp only [List.mem_cons, forall_eq_or_imp] at hasc
      exact .cons (hR _ hasc.1) (ih hasc.2)
  have h4 := h3 (R := r.From) fun b hb => (h2 b hb).1
  have h5 := h3 (R := r.To) fun b hb => .inl (h2 b hb)
  simp only [h.text, h.encodes]
  exact ⟨fun inp cs hh => ⟨hh.append h4, h4.append hh⟩, fun cs out hh => ⟨hh.append h5, h5.append hh⟩⟩

/-- The table lists the ASCII characters as single bytes, reversibly. -/
def MbRow.AsciiRows (r : MbRow) : Prop := ∀ p ∈ asciiPairs, p ∈ r.table ∧ p ∉ r.irr

theorem mb_ascii {name : String} {A : Entry} {T irr : List (List Byte × Nat)}
    (h : ∀ p ∈ asciiPairs, p ∈ T ∧ p ∉ irr) : MbRow.AsciiRows ⟨name, A, T, irr⟩ := h

theorem TableOK.mem {m : M MbRet} {w : Nat → W} {T irr : List (List Byte × Nat)} (h : TableOK m w T irr)
    {s : List Byte} {wc : Nat} (hs : s ≠ []) (hv : m.val s = .char wc s.length) : (s, wc) ∈ T := by
  have := ((h.dec_iff s wc s.length hs).1 hv).2
  rwa [List.take_length] at this

theorem mb_mem {name : String} {A : Entry} {T irr : List (List Byte × Nat)} {p : List Byte × Nat} (h : p ∈ T) :
    p ∈ (MbRow.mk name A T irr).table := h

end Reiconv
