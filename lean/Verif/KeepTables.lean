import Verif.Props.MultiRows
import Verif.Props.Pair
import Verif.Codec.SimJpms
import Verif.Cp50221

/-!
# Facts about the characters of the published tables, for C69
-/

namespace Reiconv.Keep

/-- The rows of a table from number 0 to `n - 1` satisfy `q`. -/
noncomputable def rowsAll (q : Nat → Bool) (t : Tab) (n : Nat) : Bool :=
  Nat.rec true (fun n ih => Bool.rec false ih (forceN (t.row n) q)) n

theorem rowsAll_sound {q : Nat → Bool} {t : Tab} : ∀ {n : Nat}, rowsAll q t n = true → ∀ i < n, q (t.row i) = true
  | 0, _, _, hi => absurd hi (Nat.not_lt_zero _)
  | n + 1, h, i, hi => by
    have h1 : (match forceN (t.row n) q with | false => false | true => rowsAll q t n) = true := by
      unfold rowsAll at h ⊢
      revert h
      show Bool.rec false _ (forceN (t.row n) q) = true → _
      cases forceN (t.row n) q <;> exact id
    rw [forceN_eq] at h1
    cases hq : q (t.row n) with
    | false => rw [hq] at h1; cases h1
    | true =>
      rw [hq] at h1
      rcases Nat.lt_or_ge i n with h2 | h2
      · exact rowsAll_sound h1 i h2
      · have : i = n := by omega
        rw [this]; exact hq

/-- All rows of the tables satisfy `q`. -/
noncomputable def tabsAll (q : Nat → Bool) (ts : List Tab) : Bool := ts.all fun t => rowsAll q t t.len

theorem tabsAll_sound {q : Nat → Bool} {ts : List Tab} (h : tabsAll q ts = true) :
    ∀ r ∈ tableOf ts, ∃ x, q x = true ∧ r = (unkey 8 (x / 16777216), x % 16777216) := by
  intro r hr
  unfold tableOf at hr
  obtain ⟨x, hx, rfl⟩ := List.mem_map.1 hr
  refine ⟨x, ?_, rfl⟩
  unfold packed at hx
  obtain ⟨t, ht, hx⟩ := List.mem_flatMap.1 hx
  obtain ⟨i, hi, rfl⟩ := List.mem_map.1 hx
  exact rowsAll_sound (List.all_eq_true.1 h t ht) i (List.mem_range.1 hi)

/-- The row is for no control character of C0, and for none of the characters lost in CP50221. -/
def fine (x : Nat) : Bool :=
  Nat.ble 0x20 (x % 16777216) && !(Nat.beq (x % 16777216) 0x301d) &&
    !(Nat.ble 0xe178 (x % 16777216) && Nat.ble (x % 16777216) 0xe2ef)

/-- The row is for no control character of C0, or for one byte. -/
def high (x : Nat) : Bool := Nat.ble 0x20 (x % 16777216) || Nat.ble (x / 16777216) 0x1ff

set_option maxRecDepth 100000 in
theorem jisx0208_fine : tabsAll fine (pieceTabs jisx0208_pieces) = true := by decide +kernel
set_option maxRecDepth 100000 in
theorem jisx0212_fine : tabsAll fine (pieceTabs jisx0212_pieces) = true := by decide +kernel
set_option maxRecDepth 100000 in
theorem gb2312_fine : tabsAll high (pieceTabs gb2312_pieces) = true := by decide +kernel
set_option maxRecDepth 100000 in
theorem ksc5601_fine : tabsAll high (pieceTabs ksc5601_pieces) = true := by decide +kernel
set_option maxRecDepth 100000 in
theorem isoir165_fine : tabsAll high (pieceTabs isoir165_pieces) = true := by decide +kernel
set_option maxRecDepth 100000 in
theorem euc_tw_high : tabsAll high (pieceTabs euc_tw_pieces) = true := by decide +kernel
set_option maxRecDepth 100000 in
theorem euc_jx_high : tabsAll high (pieceTabs euc_jx_pieces) = true := by decide +kernel

/-- The row is for none of the characters that CP932 writes and does not read. -/
def cp932Row (x : Nat) : Bool :=
  !([0xff5e, 0x2225, 0xff0d, 0xffe0, 0xffe1].any fun c => Nat.beq c (x % 16777216))
def cp950Row (x : Nat) : Bool := !(Nat.beq 0xa5 (x % 16777216))

/-- Only the row for the bytes 87 80 and rows with a first byte from F0 on are for characters lost in CP50221. -/
def cp932Lost (x : Nat) : Bool :=
  (!(Nat.beq (x % 16777216) 0x301d) || Nat.beq (x / 16777216) 0x18780) &&
    (!(Nat.ble 0xe178 (x % 16777216) && Nat.ble (x % 16777216) 0xe2ef) || Nat.ble 0xf0 (x / 16777216 / 256 % 256))

set_option maxRecDepth 100000 in
theorem cp932_rows_ok : tabsAll (fun x => cp932Row x && cp932Lost x) (pieceTabs cp932_pieces) = true := by decide +kernel
set_option maxRecDepth 100000 in
theorem cp950_rows_ok : tabsAll cp950Row (pieceTabs cp950_pieces) = true := by decide +kernel

theorem unkey_one : ∀ k < 512, (unkey 8 k).length ≤ 1 := by decide +kernel

theorem unkey_two {k : Nat} {p q : Byte} (h : unkey 8 k = [p, q]) : p.toNat = k / 256 % 256 := by
  unfold unkey at h
  split at h
  · cases h
  have h1 := (List.append_inj' h (show [u8 k].length = [q].length from rfl) : unkey 7 (k / 256) = [p] ∧ _).1
  unfold unkey at h1
  split at h1
  · cases h1
  have h2 := (List.append_inj' (t₁ := [u8 (k / 256)]) (s₂ := []) h1 rfl).2
  rw [← (List.cons.inj h2).1, u8_toNat]

theorem fine_sound {ts : List Tab} (h : tabsAll fine ts = true) {b : List Byte} {w : Nat} (hm : (b, w) ∈ tableOf ts) :
    0x20 ≤ w ∧ w ∉ jpmsLost := by
  obtain ⟨x, hx, he⟩ := tabsAll_sound h _ hm
  have hw : w = x % 16777216 := congrArg Prod.snd he
  unfold fine at hx
  rw [← hw] at hx
  simp only [Bool.and_eq_true, Bool.not_eq_true', Nat.ble_eq, Bool.and_eq_false_imp] at hx
  rw [mem_jpmsLost]
  have h0 : w ≠ 0x301d := by
    rintro rfl
    cases hx.1.2
  have h3 : 0xe178 ≤ w → ¬ w ≤ 0xe2ef := fun h1 h2 => by
    have := hx.2 h1
    rw [Nat.ble_eq_true_of_le h2] at this
    cases this
  have h4 := hx.1.1
  clear he hw hm hx
  omega

theorem high_sound {ts : List Tab} (h : tabsAll high ts = true) {b : List Byte} {w : Nat} (hm : (b, w) ∈ tableOf ts)
    (hb : 2 ≤ b.length) : 0x20 ≤ w := by
  obtain ⟨x, hx, he⟩ := tabsAll_sound h _ hm
  have hw : w = x % 16777216 := congrArg Prod.snd he
  have hk : b = unkey 8 (x / 16777216) := congrArg Prod.fst he
  unfold high at hx
  rw [← hw] at hx
  simp only [Bool.or_eq_true, Nat.ble_eq] at hx
  rcases hx with hx | hx
  · exact hx
  · have := unkey_one _ (show x / 16777216 < 512 by omega)
    rw [← hk] at this
    omega

theorem cp932_sound {b : List Byte} {w : Nat} (hm : (b, w) ∈ tableOf (pieceTabs cp932_pieces)) :
    w ∉ [0xff5e, 0x2225, 0xff0d, 0xffe0, 0xffe1] ∧
    (w = 0x301d → b = [0x87, 0x80]) ∧ (0xe178 ≤ w → w ≤ 0xe2ef → ∀ p q, b = [p, q] → 0xf0 ≤ p.toNat) := by
  obtain ⟨x, hx, he⟩ := tabsAll_sound cp932_rows_ok _ hm
  have hw : w = x % 16777216 := congrArg Prod.snd he
  have hk : b = unkey 8 (x / 16777216) := congrArg Prod.fst he
  unfold cp932Row cp932Lost at hx
  rw [← hw] at hx
  simp only [Bool.and_eq_true, Bool.not_eq_true', Bool.or_eq_true] at hx
  obtain ⟨h1, h2, h3⟩ := hx
  refine ⟨fun h => ?_, fun h => ?_, fun h h' p q hb => ?_⟩
  · have : ([0xff5e, 0x2225, 0xff0d, 0xffe0, 0xffe1].any fun c => Nat.beq c w) = true :=
      List.any_eq_true.2 ⟨w, h, Nat.beq_refl w⟩
    rw [this] at h1; cases h1
  · rcases h2 with h2 | h2
    · rw [h] at h2; cases h2
    · rw [hk, Nat.eq_of_beq_eq_true h2]; decide
  · rcases h3 with h3 | h3
    · rw [Nat.ble_eq_true_of_le h, Nat.ble_eq_true_of_le h'] at h3; cases h3
    · rw [unkey_two (hk.symm.trans hb)]
      exact Nat.le_of_ble_eq_true h3

theorem cp950_sound {b : List Byte} {w : Nat} (hm : (b, w) ∈ tableOf (pieceTabs cp950_pieces)) : w ≠ 0xa5 := by
  obtain ⟨x, hx, he⟩ := tabsAll_sound cp950_rows_ok _ hm
  have hw : w = x % 16777216 := congrArg Prod.snd he
  rintro rfl
  unfold cp950Row at hx
  rw [← hw] at hx
  cases hx

end Reiconv.Keep
