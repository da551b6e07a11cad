import Verif.Text
import Verif.Codec.Pair
import Verif.Codec.TableCheck

/-!
# Texts in encodings where one byte sequence can stand for two characters
-/

namespace Reiconv

/-- `inp` consists of pieces, each of which stands for one character or for two. -/
inductive Pieces2 (R : List Byte → Nat → Prop) (C : List (List Byte × Nat × Nat)) : List Byte → List Nat → Prop
  | nil : Pieces2 R C [] []
  | one {b w inp cs} : R b w → Pieces2 R C inp cs → Pieces2 R C (b ++ inp) (w :: cs)
  | two {b w1 w2 inp cs} : (b, w1, w2) ∈ C → Pieces2 R C inp cs → Pieces2 R C (b ++ inp) (w1 :: w2 :: cs)

/-- `out` is the text `cs`, where two characters are written together whenever that is possible. -/
inductive Greedy (R : List Byte → Nat → Prop) (C : List (List Byte × Nat × Nat)) : List Nat → List Byte → Prop
  | nil : Greedy R C [] []
  | one {b w out cs} : R b w → (∀ b' w2 rest, cs = w2 :: rest → (b', w, w2) ∉ C) → Greedy R C cs out →
      Greedy R C (w :: cs) (b ++ out)
  | two {b w1 w2 out cs} : (b, w1, w2) ∈ C → Greedy R C cs out → Greedy R C (w1 :: w2 :: cs) (b ++ out)

section
variable {R S : List Byte → Nat → Prop} {C : List (List Byte × Nat × Nat)}

theorem Pieces2.append {a cs b ds} (h : Pieces2 R C a cs) (h2 : Pieces2 R C b ds) :
    Pieces2 R C (a ++ b) (cs ++ ds) := by
  induction h with
  | nil => exact h2
  | one h1 _ ih => rw [List.append_assoc]; exact .one h1 ih
  | two h1 _ ih => rw [List.append_assoc]; exact .two h1 ih

theorem Greedy.pieces {cs out} (h : Greedy R C cs out) (hi : ∀ b w, w ∈ cs → R b w → S b w) : Pieces2 S C out cs := by
  induction h with
  | nil => exact .nil
  | one h1 _ _ ih =>
    exact .one (hi _ _ (List.mem_cons_self ..) h1) (ih fun b w hw => hi b w (List.mem_cons_of_mem _ hw))
  | two h1 _ ih =>
    exact .two h1 (ih fun b w hw => hi b w (List.mem_cons_of_mem _ (List.mem_cons_of_mem _ hw)))

/-- Every text of encodable characters is written. -/
theorem Greedy.total (hc : ∀ b w1 w2, (b, w1, w2) ∈ C → ∃ b1, R b1 w1) (n : Nat) : ∀ (cs : List Nat), cs.length ≤ n →
    (∀ w ∈ cs, ∃ b, R b w) → ∃ out, Greedy R C cs out := by
  induction n with
  | zero =>
    intro cs hl _
    cases cs with
    | nil => exact ⟨[], .nil⟩
    | cons _ _ => simp at hl
  | succ n ih =>
    intro cs hl h
    cases cs with
    | nil => exact ⟨[], .nil⟩
    | cons w cs =>
      simp only [List.length_cons] at hl
      by_cases h2 : ∃ b' w2 rest, cs = w2 :: rest ∧ (b', w, w2) ∈ C
      · obtain ⟨b', w2, rest, rfl, hm⟩ := h2
        simp only [List.length_cons] at hl
        obtain ⟨out, ho⟩ := ih rest (by omega) fun x hx => h x (by simp [hx])
        exact ⟨_, .two hm ho⟩
      · obtain ⟨b, hb⟩ := h w (List.mem_cons_self ..)
        obtain ⟨out, ho⟩ := ih cs (by omega) fun x hx => h x (List.mem_cons_of_mem _ hx)
        exact ⟨_, .one hb (fun b' w2 rest e hm => h2 ⟨b', w2, rest, e, hm⟩) ho⟩

end

/-- How the functions of the encoding relate to functions `m` and `w` for the single characters, to the
function `hold` that says which characters are held back, in which state, and to the list `C` of pairs. -/
structure PairRel (body : M SItem) (comp : Nat → Nat → Option (List Nat)) (last : Nat → List Nat)
    (base : Nat → Nat → BW) (m : M MbRet) (w : Nat → W) (hold : Nat → Nat) (C : List (List Byte × Nat × Nat)) : Prop where
  dec1 : ∀ s wc n, m.run s = .ok (some (.char wc n)) → body.run s = .ok (some (.char wc n 0))
  dec2 : ∀ s wc n st, s ≠ [] → body.run s = .ok (some (.char wc n st)) →
    (st = 0 ∧ m.run s = .ok (some (.char wc n))) ∨ (st ≠ 0 ∧ n ≤ s.length ∧ (s.take n, wc, st) ∈ C)
  dec3 : ∀ b c1 c2, (b, c1, c2) ∈ C → c2 ≠ 0 ∧ b ≠ [] ∧ body.run b = .ok (some (.char c1 b.length c2))
  enc1 : ∀ c wc acc, c = 0 ∨ c = 2 → (base c wc).res acc =
    match (w wc).res with
    | none => none
    | some bs => if hold wc = 0 then some (acc ++ bs, 0) else some (acc, hold wc)
  enc2 : ∀ wc bs, hold wc ≠ 0 → (w wc).res = some bs → (last (hold wc)).map u8 = bs
  enc3 : ∀ c1 c2 b, hold c1 ≠ 0 → (w c1).res ≠ none →
    ((∃ l, comp (hold c1) c2 = some l ∧ l.map u8 = b) ↔ (b, c1, c2) ∈ C)
  enc4 : ∀ c1 c2 b, (b, c1, c2) ∈ C → hold c1 ≠ 0 ∧ (w c1).res ≠ none
  enc5 : ∀ c, isTag c = true → hold c = 0

section
variable {idx : Nat} {hu : unitOf idx = 1} {body : M SItem} {hd : M.Good PairItemOK 1 body} {I : Nat → Prop}
    {comp : Nat → Nat → Option (List Nat)} {last : Nat → List Nat}
    {base : Nat → Nat → BW} {he : PairGood I comp last base}
    {m : M MbRet} {w : Nat → W} {hold : Nat → Nat} {C : List (List Byte × Nat × Nat)}

theorem pair_kept (st : Nat) : (pairDec body).kept ⟨0, st⟩ = if st ≠ 0 then [st] else [] := by
  unfold Decoder.kept pairDec normal_flushwc
  by_cases h : st = 0
  · simp [h]
  · simp [h]

theorem M.val_char {m : M MbRet} {s : List Byte} {wc n : Nat} (h : m.val s = .char wc n) :
    m.run s = .ok (some (.char wc n)) := by
  unfold M.val at h
  split at h
  · next r hr => rw [hr, h]
  · cases h

theorem pair_chars {irr T : List (List Byte × Nat)} (hd : M.Good PairItemOK 1 body) (h : PairRel body comp last base m w hold C)
    (ht : TableOK m w T irr) {is is' : IState} {inp : List Byte} {cs : List Nat}
    (hc : Chars (satom (pairItem body)) is inp cs is') (hb : is.bo = 0) :
    ∃ ds, Pieces2 (fun b c => (b, c) ∈ T) C inp ds ∧
      (if is.st ≠ 0 then [is.st] else []) ++ ds = cs ++ (pairDec body).kept is' := by
  induction hc with
  | nil is =>
    obtain ⟨bo, st⟩ := is
    cases hb
    exact ⟨[], .nil, by rw [pair_kept]; simp⟩
  | @shift is inp n is1 cs is2 hne ha _ ih =>
    exfalso
    unfold satom pairItem at ha
    by_cases hs : is.st = 0
    · rw [if_neg (by omega)] at ha
      obtain ⟨o, h1, h2⟩ := M.good_run body 1 inp hd (one_le_length hne)
      rw [h1] at ha
      cases o with
      | none => cases ha
      | some x =>
        cases x with
        | char _ _ _ => cases ha
        | ilseq => cases ha
        | shift _ _ =>
          obtain ⟨j, _, _, hp⟩ := h2 _ rfl
          exact hp
    · rw [if_pos hs] at ha
      cases ha
  | @char is inp wc n is1 cs is2 hne ha _ ih =>
    unfold satom pairItem at ha
    by_cases hs : is.st = 0
    · rw [if_neg (by omega)] at ha
      obtain ⟨o, h1, _⟩ := M.good_run body 1 inp hd (one_le_length hne)
      rw [h1] at ha
      cases o with
      | none => cases ha
      | some x =>
        cases x with
        | ilseq => cases ha
        | shift _ _ => cases ha
        | char c k st =>
          simp only [Atom.char.injEq] at ha
          obtain ⟨rfl, rfl, rfl⟩ := ha
          obtain ⟨ds, h3, h4⟩ := ih hb
          simp only at h4
          rw [if_neg (by omega)]
          simp only [List.nil_append]
          rcases h.dec2 inp c k st hne h1 with ⟨rfl, h5⟩ | ⟨h5, h6, h7⟩
          · obtain ⟨h6, h7⟩ := (ht.dec_iff inp c k hne).1 (M.val_of_run h5)
            refine ⟨c :: ds, ?_, by rw [if_neg (by omega), List.nil_append] at h4; rw [h4]; rfl⟩
            rw [← List.take_append_drop k inp]
            exact .one h7 h3
          · refine ⟨c :: st :: ds, ?_, by rw [if_pos h5] at h4; rw [List.cons_append, ← h4]; rfl⟩
            rw [← List.take_append_drop k inp]
            exact .two h7 h3
    · rw [if_pos hs] at ha
      simp only [M.run, Atom.char.injEq] at ha
      obtain ⟨rfl, rfl, rfl⟩ := ha
      obtain ⟨ds, h3, h4⟩ := ih hb
      simp only [ne_eq, not_true_eq_false, if_false, List.nil_append] at h4
      rw [if_pos hs]
      exact ⟨ds, h3, by rw [h4]; rfl⟩

theorem pair_read {irr T : List (List Byte × Nat)} (hd : M.Good PairItemOK 1 body) (h : PairRel body comp last base m w hold C)
    (ht : TableOK m w T irr) {inp : List Byte} {cs : List Nat}
    (hp : Pieces2 (fun b c => (b, c) ∈ T) C inp cs) :
    ∃ cs0 is, Chars (satom (pairItem body)) ⟨0, 0⟩ inp cs0 is ∧ cs = cs0 ++ (pairDec body).kept is := by
  induction hp with
  | nil => exact ⟨[], ⟨0, 0⟩, .nil _, by rw [pair_kept]; rfl⟩
  | @one b c inp cs h1 _ ih =>
    obtain ⟨cs0, is, h2, h3⟩ := ih
    have h1 : (b, c) ∈ T := h1
    have hbn : b ≠ [] := by
      rintro rfl
      have := (ht.dec_iff [0] c 0 (by simp)).2 ⟨by simp, by simpa using h1⟩
      have := h.dec1 _ _ _ (M.val_char this)
      obtain ⟨o, g1, g2⟩ := M.good_run body 1 [0] hd (by simp)
      rw [this] at g1
      cases g1
      obtain ⟨j, _, _, hp⟩ := g2 _ rfl
      exact absurd hp.2.1 (by omega)
    have hv := (ht.dec_iff (b ++ inp) c b.length (by simp [hbn])).2 ⟨by simp, by simpa using h1⟩
    have hr := h.dec1 _ _ _ (M.val_char hv)
    refine ⟨c :: cs0, is, .char (n := b.length) (is' := ⟨0, 0⟩) (by simp [hbn]) ?_ ?_, by rw [h3]; rfl⟩
    · unfold satom pairItem
      rw [if_neg (by simp), hr]
    · rw [List.drop_left]; exact h2
  | @two b c1 c2 inp cs h1 _ ih =>
    obtain ⟨cs0, is, h2, h3⟩ := ih
    obtain ⟨g1, g2, g3⟩ := h.dec3 b c1 c2 h1
    have hr := M.run_ext body b inp _ g3
    have ha : satom (pairItem body) ⟨0, 0⟩ (b ++ inp) = .char c1 b.length ⟨0, c2⟩ := by
      unfold satom pairItem
      rw [if_neg (by simp), hr]
    by_cases hi : inp = []
    · subst hi
      have hn : cs0 = [] ∧ is = ⟨0, 0⟩ := by
        cases h2 with
        | nil => exact ⟨rfl, rfl⟩
        | char hne _ _ => exact absurd rfl hne
        | shift hne _ _ => exact absurd rfl hne
      obtain ⟨rfl, rfl⟩ := hn
      refine ⟨[c1], ⟨0, c2⟩, .char (by simp [g2]) ha ?_, ?_⟩
      · rw [List.drop_left]; exact .nil _
      · rw [h3, pair_kept, pair_kept, if_pos g1]; rfl
    · refine ⟨c1 :: c2 :: cs0, is, .char (by simp [g2]) ha ?_, by rw [h3]; rfl⟩
      rw [List.drop_left]
      refine .char (n := 0) (is' := ⟨0, 0⟩) hi ?_ h2
      unfold satom pairItem
      rw [if_pos g1]
      rfl

/-- The texts of the encoding: sequences of the byte sequences of the table and of the pairs. -/
theorem pair_text {irr T : List (List Byte × Nat)} (h : PairRel body comp last base m w hold C)
    (ht : TableOK m w T irr) (inp : List Byte) (cs : List Nat) :
    (pairEntry idx hu hd he).Text inp cs ↔ Pieces2 (fun b c => (b, c) ∈ T) C inp cs := by
  constructor
  · rintro ⟨cs0, is, h1, rfl⟩
    obtain ⟨ds, h2, h3⟩ := pair_chars hd h ht (is := ⟨0, 0⟩) h1 rfl
    rw [if_neg (by simp), List.nil_append] at h3
    have h3 : ds = cs0 ++ (pairEntry idx hu hd he).dec.kept is := h3
    rw [← h3]
    exact h2
  · intro hp
    exact pair_read hd h ht hp

/-! ## Writing -/

theorem pair_enc0 (wc : Nat) : (pairEncSt he).enc 0 wc = (base 0 wc).res [] := rfl

theorem pair_enc_some {os wc : Nat} {bs : List Nat} (hos : os ≠ 0) (hc : comp os wc = some bs) :
    (pairEncSt he).enc os wc = some (bs.map u8, 0) := by
  show (pairProg comp last base os wc).res [] = _
  unfold pairProg
  rw [if_pos hos, hc]
  rfl

theorem pair_enc_none {os wc : Nat} (hos : os ≠ 0) (hc : comp os wc = none) :
    (pairEncSt he).enc os wc = (base 2 wc).res ((last os).map u8) := by
  show (pairProg comp last base os wc).res [] = _
  unfold pairProg
  rw [if_pos hos, hc]
  rfl

theorem Encoder.text_cons' {E : Encoder} {os c : Nat} {cs : List Nat} {bs : List Byte} {os' : Nat} :
    E.text os (c :: cs) = some (bs, os') ↔
      ∃ b1 os1 b2, E.rep os c = some (b1, os1) ∧ E.text os1 cs = some (b2, os') ∧ bs = b1 ++ b2 := by
  simp only [Encoder.text]
  cases h : E.rep os c with
  | none => simp
  | some x =>
    obtain ⟨b1, os1⟩ := x
    simp only
    cases h2 : E.text os1 cs with
    | none =>
      constructor
      · intro h3; cases h3
      · rintro ⟨b1', os1', b2, h3, h4, _⟩
        cases h3
        rw [h2] at h4
        cases h4
    | some y =>
      obtain ⟨b2, os2⟩ := y
      constructor
      · intro h3
        cases h3
        exact ⟨b1, os1, b2, rfl, h2, rfl⟩
      · rintro ⟨b1', os1', b2', h3, h4, rfl⟩
        cases h3
        rw [h2] at h4
        cases h4
        rfl

/-- `out` is what is written for `cs` in state `os`, up to the end. -/
def Encoder.WritesFrom (E : Encoder) (os : Nat) (cs : List Nat) (out : List Byte) : Prop :=
  ∃ bs os', E.text os cs = some (bs, os') ∧ out = bs ++ E.tail os'

theorem Encoder.writesFrom_cons {E : Encoder} {os c : Nat} {cs : List Nat} {out : List Byte} :
    E.WritesFrom os (c :: cs) out ↔
      ∃ b1 os1 r, E.rep os c = some (b1, os1) ∧ E.WritesFrom os1 cs r ∧ out = b1 ++ r := by
  unfold Encoder.WritesFrom
  constructor
  · rintro ⟨bs, os', h1, rfl⟩
    obtain ⟨b1, os1, b2, h2, h3, rfl⟩ := Encoder.text_cons'.1 h1
    exact ⟨b1, os1, _, h2, ⟨b2, os', h3, rfl⟩, by rw [List.append_assoc]⟩
  · rintro ⟨b1, os1, r, h1, ⟨bs, os', h2, rfl⟩, rfl⟩
    exact ⟨b1 ++ bs, os', Encoder.text_cons'.2 ⟨b1, os1, bs, h1, h2, rfl⟩, by rw [List.append_assoc]⟩

theorem pair_tail (he : PairGood I comp last base) {os : Nat} (hI : I os) :
    (bencoder (pairProg comp last base) (pairTail last)).tail os = if os ≠ 0 then (last os).map u8 else [] := by
  have := (pairEncSt he).tail_eq (os := os) hI (by simp [bencoder])
  rw [this]
  show (pairTail last os).map u8 = _
  unfold pairTail
  split <;> rfl

theorem pair_rep (he : PairGood I comp last base) (h : PairRel body comp last base m w hold C) {os c : Nat}
    (hI : I os) : (bencoder (pairProg comp last base) (pairTail last)).rep os c =
      (bencoder (pairProg comp last base) (pairTail last)).full os c := by
  apply Encoder.rep_eq
  rintro bs os' hf ht rfl
  rw [(pairEncSt he).full_eq hI] at hf
  have h0 : os' = 0 := by
    have hb : ∀ k acc, k = 0 ∨ k = 2 → (base k c).res acc = some ([], os') → os' = 0 := by
      intro k acc hk hr
      rw [h.enc1 k c acc hk] at hr
      split at hr
      · cases hr
      · rw [if_pos (h.enc5 c ht)] at hr
        simp only [Option.some.injEq, Prod.mk.injEq] at hr
        exact hr.2.symm
    by_cases hos : os = 0
    · subst hos
      exact hb 0 [] (.inl rfl) hf
    · cases hc : comp os c with
      | some l => 
        rw [pair_enc_some hos hc] at hf
        simp only [Option.some.injEq, Prod.mk.injEq] at hf
        exact hf.2.symm
      | none => rw [pair_enc_none hos hc] at hf; exact hb 2 _ (.inr rfl) hf
  subst h0
  rcases (BW.good_res _ [] 0 [] 0 (pair_good he os c hI) hf).2.2 with h1 | h1
  · exact h1 rfl
  · exact h1 rfl

theorem pair_hold (he : PairGood I comp last base) (h : PairRel body comp last base m w hold C) {c : Nat}
    (hh : hold c ≠ 0) (hn : (w c).res ≠ none) : I (hold c) := by
  obtain ⟨b, hb⟩ := Option.ne_none_iff_exists'.1 hn
  have e := h.enc1 0 c [] (.inl rfl)
  rw [hb] at e
  simp only at e
  rw [if_neg hh] at e
  exact ((pairEncSt he).len 0 c [] (hold c) he.init e).1

theorem pair_writes (he : PairGood I comp last base) (h : PairRel body comp last base m w hold C) : ∀ (cs : List Nat),
    (∀ out, (bencoder (pairProg comp last base) (pairTail last)).WritesFrom 0 cs out ↔
      Greedy (fun b c => (w c).res = some b) C cs out) ∧
    (∀ c0, hold c0 ≠ 0 → (w c0).res ≠ none → ∀ out,
      (bencoder (pairProg comp last base) (pairTail last)).WritesFrom (hold c0) cs out ↔
      Greedy (fun b c => (w c).res = some b) C (c0 :: cs) out) := by
  intro cs
  induction cs with
  | nil =>
    constructor
    · intro out
      constructor
      · rintro ⟨bs, os', h1, rfl⟩
        cases h1
        rw [pair_tail he he.init]
        exact .nil
      · intro hg
        cases hg
        exact ⟨[], 0, rfl, by rw [pair_tail he he.init]; rfl⟩
    · intro c0 hh hn out
      have hI := pair_hold he h hh hn
      obtain ⟨b0, hb0⟩ := Option.ne_none_iff_exists'.1 hn
      have hl := h.enc2 c0 b0 hh hb0
      constructor
      · rintro ⟨bs, os', h1, rfl⟩
        cases h1
        rw [pair_tail he hI, if_pos hh, hl, List.nil_append, ← List.append_nil b0]
        exact .one hb0 (by rintro _ _ _ ⟨⟩) .nil
      · intro hg
        cases hg with
        | @one b _ out' _ h1 _ h2 =>
          cases h2
          have h1 : (w c0).res = some b := h1
          rw [hb0] at h1
          cases h1
          exact ⟨[], _, rfl, by rw [pair_tail he hI, if_pos hh, hl]; simp⟩
  | cons c cs ih =>
    obtain ⟨ih0, ihh⟩ := ih
    -- writing `c` after `acc`, nothing else being held back
    have key : ∀ k acc out, k = 0 ∨ k = 2 →
        ((∃ b1 os1 r, (base k c).res acc = some (b1, os1) ∧
          (bencoder (pairProg comp last base) (pairTail last)).WritesFrom os1 cs r ∧ out = b1 ++ r) ↔
        ∃ r, Greedy (fun b c => (w c).res = some b) C (c :: cs) r ∧ out = acc ++ r) := by
      intro k acc out hk
      rw [h.enc1 k c acc hk]
      cases hw : (w c).res with
      | none =>
        constructor
        · rintro ⟨_, _, _, h1, _⟩; cases h1
        · rintro ⟨r, hg, _⟩
          cases hg with
          | one h1 _ _ =>
            have h1 : (w c).res = some _ := h1
            rw [hw] at h1; cases h1
          | two h1 _ => exact absurd hw (h.enc4 _ _ _ h1).2
      | some bs =>
        simp only
        by_cases hh : hold c = 0
        · rw [if_pos hh]
          constructor
          · rintro ⟨_, _, r, h1, h2, rfl⟩
            cases h1
            refine ⟨bs ++ r, .one hw ?_ ((ih0 r).1 h2), by rw [List.append_assoc]⟩
            intro b' w2 rest _ hm
            exact (h.enc4 _ _ _ hm).1 hh
          · rintro ⟨r, hg, rfl⟩
            cases hg with
            | @one b _ out' _ h1 _ h2 =>
              have h1 : (w c).res = some b := h1
              rw [hw] at h1
              cases h1
              exact ⟨_, _, out', rfl, (ih0 out').2 h2, by rw [List.append_assoc]⟩
            | two h1 _ => exact absurd hh (h.enc4 _ _ _ h1).1
        · rw [if_neg hh]
          constructor
          · rintro ⟨_, _, r, h1, h2, rfl⟩
            cases h1
            exact ⟨r, (ihh c hh (by rw [hw]; simp) r).1 h2, rfl⟩
          · rintro ⟨r, hg, rfl⟩
            exact ⟨_, _, r, rfl, (ihh c hh (by rw [hw]; simp) r).2 hg, rfl⟩
    constructor
    · intro out
      rw [Encoder.writesFrom_cons]
      have e : (bencoder (pairProg comp last base) (pairTail last)).rep 0 c = (base 0 c).res [] :=
        (pair_rep he h he.init).trans ((pairEncSt he).full_eq (os := 0) he.init c)
      rw [e, key 0 [] out (.inl rfl)]
      constructor
      · rintro ⟨r, h1, rfl⟩; exact h1
      · intro h1; exact ⟨out, h1, rfl⟩
    · intro c0 hh hn out
      have hI := pair_hold he h hh hn
      obtain ⟨b0, hb0⟩ := Option.ne_none_iff_exists'.1 hn
      have hl := h.enc2 c0 b0 hh hb0
      rw [Encoder.writesFrom_cons]
      have e : (bencoder (pairProg comp last base) (pairTail last)).rep (hold c0) c = (pairEncSt he).enc (hold c0) c :=
        (pair_rep he h hI).trans ((pairEncSt he).full_eq (os := hold c0) hI c)
      rw [e]
      cases hc : comp (hold c0) c with
      | some l =>
        rw [pair_enc_some hh hc]
        have hm := (h.enc3 c0 c (l.map u8) hh hn).1 ⟨l, hc, rfl⟩
        constructor
        · rintro ⟨_, _, r, h1, h2, rfl⟩
          cases h1
          exact .two hm ((ih0 r).1 h2)
        · intro hg
          cases hg with
          | one _ h1 _ => exact absurd hm (h1 _ _ _ rfl)
          | @two b _ _ out' _ h1 h2 =>
            obtain ⟨l', h3, rfl⟩ := (h.enc3 c0 c b hh hn).2 h1
            rw [hc] at h3
            cases h3
            exact ⟨_, _, out', rfl, (ih0 out').2 h2, rfl⟩
      | none =>
        have hno : ∀ b', (b', c0, c) ∉ C := by
          intro b' hm
          obtain ⟨l, h1, _⟩ := (h.enc3 c0 c b' hh hn).2 hm
          rw [hc] at h1
          cases h1
        rw [pair_enc_none hh hc, hl, key 2 b0 out (.inr rfl)]
        constructor
        · rintro ⟨r, h1, rfl⟩
          refine .one hb0 ?_ h1
          rintro b' w2 rest e hm
          cases e
          exact hno _ hm
        · intro hg
          cases hg with
          | @one b _ out' _ h1 _ h2 =>
            have h1 : (w c0).res = some b := h1
            rw [hb0] at h1
            cases h1
            exact ⟨out', h2, rfl⟩
          | two h1 _ => exact absurd h1 (hno _)

/-- What the encoder writes. -/
theorem pair_encodes (h : PairRel body comp last base m w hold C) (cs : List Nat) (out : List Byte) :
    (pairEntry idx hu hd he).Encodes cs out ↔ Greedy (fun b c => (w c).res = some b) C cs out :=
  (pair_writes he h cs).1 out

end

end Reiconv
