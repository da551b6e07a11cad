import Verif.Codec.Back
import Verif.Gen.UnTw

namespace Reiconv

/-- The decoding function for a plane of CNS 11643. -/
def cnsPlane (p : Nat) : M MbRet :=
  if p = 1 then cns11643_1_dec.mbtowc
  else if p = 2 then cns11643_2_dec.mbtowc
  else if p = 3 then cns11643_3_dec.mbtowc
  else if p = 4 then cns11643_4_dec.mbtowc
  else if p = 5 then cns11643_5_dec.mbtowc
  else if p = 6 then cns11643_6_dec.mbtowc
  else if p = 7 then cns11643_7_dec.mbtowc
  else if p = 15 then cns11643_15_dec.mbtowc
  else .ret (.ilseq 0)

noncomputable def cnsDec (c : Nat) : Nat :=
  forceN (Nat.mod (Nat.shiftRight c 16) 256) fun p =>
  cond (Nat.beq p 1) (decTwo cns11643_1_decU.val c) <|
  cond (Nat.beq p 2) (decTwo cns11643_2_decU.val c) <|
  cond (Nat.beq p 3) (decTwo cns11643_3_decU.val c) <|
  cond (Nat.beq p 4) (decTwo cns11643_4_decU.val c) <|
  cond (Nat.beq p 5) (decTwo cns11643_5_decU.val c) <|
  cond (Nat.beq p 6) (decTwo cns11643_6_decU.val c) <|
  cond (Nat.beq p 7) (decTwo cns11643_7_decU.val c) <|
  cond (Nat.beq p 15) (decTwo cns11643_15_decU.val c) 0

theorem decTwo_run {d : CsDec} {decU : Nat → Nat → Nat} (hd : d.safeF = true) (h2 : ∀ a b, d.decF a b = decU a b)
    {wc c : Nat} (h : decTwo decU c = wc + 1) :
    d.mbtowc.run [u8 (c >>> 8 &&& 255), u8 (c &&& 255)] = .ok (some (.char wc 2)) := by
  have hb : decU (c >>> 8 % 256) ((c &&& 255) % 256) = wc + 1 := h
  have e : (c >>> 8 &&& 255) % 256 = c >>> 8 % 256 := by
    rw [show (255 : Nat) = 2 ^ 8 - 1 from rfl, Nat.and_two_pow_sub_one_eq_mod]; omega
  rw [d.run_fast hd, u8_toNat, u8_toNat, e]
  unfold CsDec.ch
  rw [h2, hb]
  rfl

theorem cnsDec_sound (wc c : Nat) (h : cnsDec c = wc + 1) :
    (cnsPlane (c >>> 16 % 256)).run [u8 (c >>> 8 &&& 255), u8 (c &&& 255)] = .ok (some (.char wc 2)) := by
  unfold cnsDec at h
  rw [forceN_eq] at h
  simp only [← ite_eq_fast] at h
  have e : Nat.mod (Nat.shiftRight c 16) 256 = c >>> 16 % 256 := rfl
  rw [e] at h
  unfold cnsPlane
  split at h
  · rw [if_pos ‹_›]; exact decTwo_run cns11643_1_dec_safe cns11643_1_decU_eq h
  rw [if_neg ‹_›]
  split at h
  · rw [if_pos ‹_›]; exact decTwo_run cns11643_2_dec_safe cns11643_2_decU_eq h
  rw [if_neg ‹_›]
  split at h
  · rw [if_pos ‹_›]; exact decTwo_run cns11643_3_dec_safe cns11643_3_decU_eq h
  rw [if_neg ‹_›]
  split at h
  · rw [if_pos ‹_›]; exact decTwo_run cns11643_4_dec_safe cns11643_4_decU_eq h
  rw [if_neg ‹_›]
  split at h
  · rw [if_pos ‹_›]; exact decTwo_run cns11643_5_dec_safe cns11643_5_decU_eq h
  rw [if_neg ‹_›]
  split at h
  · rw [if_pos ‹_›]; exact decTwo_run cns11643_6_dec_safe cns11643_6_decU_eq h
  rw [if_neg ‹_›]
  split at h
  · rw [if_pos ‹_›]; exact decTwo_run cns11643_7_dec_safe cns11643_7_decU_eq h
  rw [if_neg ‹_›]
  split at h
  · rw [if_pos ‹_›]; exact decTwo_run cns11643_15_dec_safe cns11643_15_decU_eq h
  · cases h

end Reiconv
