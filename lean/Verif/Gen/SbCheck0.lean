import Verif.Gen.SbTables
import Verif.Gen.SbData0

/-!
# Checks of single-byte encodings against the reference tables

Generated by `tools/gensb.py`. Every byte and every character covered by a branch is
evaluated by the kernel.
-/

namespace Reiconv

theorem armscii_8_safe : armscii_8_sb.safe = true := by decide +kernel
theorem armscii_8_chkDec : chkDec armscii_8_sb armscii_8_from = true := by decide +kernel
theorem armscii_8_chkInv : chkInv armscii_8_sb armscii_8_irr = true := by decide +kernel

theorem atarist_safe : atarist_sb.safe = true := by decide +kernel
theorem atarist_chkDec : chkDec atarist_sb atarist_from = true := by decide +kernel
theorem atarist_chkInv : chkInv atarist_sb atarist_irr = true := by decide +kernel

theorem cp1046_safe : cp1046_sb.safe = true := by decide +kernel
theorem cp1046_chkDec : chkDec cp1046_sb cp1046_from = true := by decide +kernel
theorem cp1046_chkInv : chkInv cp1046_sb cp1046_irr = true := by decide +kernel

theorem cp1124_safe : cp1124_sb.safe = true := by decide +kernel
theorem cp1124_chkDec : chkDec cp1124_sb cp1124_from = true := by decide +kernel
theorem cp1124_chkInv : chkInv cp1124_sb cp1124_irr = true := by decide +kernel

theorem cp1125_safe : cp1125_sb.safe = true := by decide +kernel
theorem cp1125_chkDec : chkDec cp1125_sb cp1125_from = true := by decide +kernel
theorem cp1125_chkInv : chkInv cp1125_sb cp1125_irr = true := by decide +kernel

theorem cp1129_safe : cp1129_sb.safe = true := by decide +kernel
theorem cp1129_chkDec : chkDec cp1129_sb cp1129_from = true := by decide +kernel
theorem cp1129_chkInv : chkInv cp1129_sb cp1129_irr = true := by decide +kernel

theorem cp1131_safe : cp1131_sb.safe = true := by decide +kernel
theorem cp1131_chkDec : chkDec cp1131_sb cp1131_from = true := by decide +kernel
theorem cp1131_chkInv : chkInv cp1131_sb cp1131_irr = true := by decide +kernel

theorem cp1133_safe : cp1133_sb.safe = true := by decide +kernel
theorem cp1133_chkDec : chkDec cp1133_sb cp1133_from = true := by decide +kernel
theorem cp1133_chkInv : chkInv cp1133_sb cp1133_irr = true := by decide +kernel

theorem cp1161_safe : cp1161_sb.safe = true := by decide +kernel
theorem cp1161_chkDec : chkDec cp1161_sb cp1161_from = true := by decide +kernel
theorem cp1161_chkInv : chkInv cp1161_sb cp1161_irr = true := by decide +kernel

theorem cp1162_safe : cp1162_sb.safe = true := by decide +kernel
theorem cp1162_chkDec : chkDec cp1162_sb cp1162_from = true := by decide +kernel
theorem cp1162_chkInv : chkInv cp1162_sb cp1162_irr = true := by decide +kernel

theorem cp1163_safe : cp1163_sb.safe = true := by decide +kernel
theorem cp1163_chkDec : chkDec cp1163_sb cp1163_from = true := by decide +kernel
theorem cp1163_chkInv : chkInv cp1163_sb cp1163_irr = true := by decide +kernel

theorem cp1250_safe : cp1250_sb.safe = true := by decide +kernel
theorem cp1250_chkDec : chkDec cp1250_sb cp1250_from = true := by decide +kernel
theorem cp1250_chkInv : chkInv cp1250_sb cp1250_irr = true := by decide +kernel

theorem cp1251_safe : cp1251_sb.safe = true := by decide +kernel
theorem cp1251_chkDec : chkDec cp1251_sb cp1251_from = true := by decide +kernel
theorem cp1251_chkInv : chkInv cp1251_sb cp1251_irr = true := by decide +kernel

theorem cp1252_safe : cp1252_sb.safe = true := by decide +kernel
theorem cp1252_chkDec : chkDec cp1252_sb cp1252_from = true := by decide +kernel
theorem cp1252_chkInv : chkInv cp1252_sb cp1252_irr = true := by decide +kernel

theorem cp1253_safe : cp1253_sb.safe = true := by decide +kernel
theorem cp1253_chkDec : chkDec cp1253_sb cp1253_from = true := by decide +kernel
theorem cp1253_chkInv : chkInv cp1253_sb cp1253_irr = true := by decide +kernel

theorem cp1254_safe : cp1254_sb.safe = true := by decide +kernel
theorem cp1254_chkDec : chkDec cp1254_sb cp1254_from = true := by decide +kernel
theorem cp1254_chkInv : chkInv cp1254_sb cp1254_irr = true := by decide +kernel

theorem cp1256_safe : cp1256_sb.safe = true := by decide +kernel
theorem cp1256_chkDec : chkDec cp1256_sb cp1256_from = true := by decide +kernel
theorem cp1256_chkInv : chkInv cp1256_sb cp1256_irr = true := by decide +kernel

theorem cp1257_safe : cp1257_sb.safe = true := by decide +kernel
theorem cp1257_chkDec : chkDec cp1257_sb cp1257_from = true := by decide +kernel
theorem cp1257_chkInv : chkInv cp1257_sb cp1257_irr = true := by decide +kernel

theorem cp437_safe : cp437_sb.safe = true := by decide +kernel
theorem cp437_chkDec : chkDec cp437_sb cp437_from = true := by decide +kernel
theorem cp437_chkInv : chkInv cp437_sb cp437_irr = true := by decide +kernel

theorem cp737_safe : cp737_sb.safe = true := by decide +kernel
theorem cp737_chkDec : chkDec cp737_sb cp737_from = true := by decide +kernel
theorem cp737_chkInv : chkInv cp737_sb cp737_irr = true := by decide +kernel

theorem cp775_safe : cp775_sb.safe = true := by decide +kernel
theorem cp775_chkDec : chkDec cp775_sb cp775_from = true := by decide +kernel
theorem cp775_chkInv : chkInv cp775_sb cp775_irr = true := by decide +kernel

theorem cp850_safe : cp850_sb.safe = true := by decide +kernel
theorem cp850_chkDec : chkDec cp850_sb cp850_from = true := by decide +kernel
theorem cp850_chkInv : chkInv cp850_sb cp850_irr = true := by decide +kernel

theorem cp852_safe : cp852_sb.safe = true := by decide +kernel
theorem cp852_chkDec : chkDec cp852_sb cp852_from = true := by decide +kernel
theorem cp852_chkInv : chkInv cp852_sb cp852_irr = true := by decide +kernel

/-- The encodings of this file with their reference tables. -/
def sbGroup0 : List (SB × List (Nat × Nat) × List (Nat × Nat)) :=
  [(armscii_8_sb, armscii_8_from, armscii_8_irr),
    (atarist_sb, atarist_from, atarist_irr),
    (cp1046_sb, cp1046_from, cp1046_irr),
    (cp1124_sb, cp1124_from, cp1124_irr),
    (cp1125_sb, cp1125_from, cp1125_irr),
    (cp1129_sb, cp1129_from, cp1129_irr),
    (cp1131_sb, cp1131_from, cp1131_irr),
    (cp1133_sb, cp1133_from, cp1133_irr),
    (cp1161_sb, cp1161_from, cp1161_irr),
    (cp1162_sb, cp1162_from, cp1162_irr),
    (cp1163_sb, cp1163_from, cp1163_irr),
    (cp1250_sb, cp1250_from, cp1250_irr),
    (cp1251_sb, cp1251_from, cp1251_irr),
    (cp1252_sb, cp1252_from, cp1252_irr),
    (cp1253_sb, cp1253_from, cp1253_irr),
    (cp1254_sb, cp1254_from, cp1254_irr),
    (cp1256_sb, cp1256_from, cp1256_irr),
    (cp1257_sb, cp1257_from, cp1257_irr),
    (cp437_sb, cp437_from, cp437_irr),
    (cp737_sb, cp737_from, cp737_irr),
    (cp775_sb, cp775_from, cp775_irr),
    (cp850_sb, cp850_from, cp850_irr),
    (cp852_sb, cp852_from, cp852_irr)]

theorem sbGroup0_ok : ∀ t ∈ sbGroup0, t.1.safe = true ∧ chkDec t.1 t.2.1 = true ∧ chkInv t.1 t.2.2 = true := by
  unfold sbGroup0
  simp only [List.forall_mem_cons]
  exact ⟨⟨armscii_8_safe, armscii_8_chkDec, armscii_8_chkInv⟩,
    ⟨atarist_safe, atarist_chkDec, atarist_chkInv⟩,
    ⟨cp1046_safe, cp1046_chkDec, cp1046_chkInv⟩,
    ⟨cp1124_safe, cp1124_chkDec, cp1124_chkInv⟩,
    ⟨cp1125_safe, cp1125_chkDec, cp1125_chkInv⟩,
    ⟨cp1129_safe, cp1129_chkDec, cp1129_chkInv⟩,
    ⟨cp1131_safe, cp1131_chkDec, cp1131_chkInv⟩,
    ⟨cp1133_safe, cp1133_chkDec, cp1133_chkInv⟩,
    ⟨cp1161_safe, cp1161_chkDec, cp1161_chkInv⟩,
    ⟨cp1162_safe, cp1162_chkDec, cp1162_chkInv⟩,
    ⟨cp1163_safe, cp1163_chkDec, cp1163_chkInv⟩,
    ⟨cp1250_safe, cp1250_chkDec, cp1250_chkInv⟩,
    ⟨cp1251_safe, cp1251_chkDec, cp1251_chkInv⟩,
    ⟨cp1252_safe, cp1252_chkDec, cp1252_chkInv⟩,
    ⟨cp1253_safe, cp1253_chkDec, cp1253_chkInv⟩,
    ⟨cp1254_safe, cp1254_chkDec, cp1254_chkInv⟩,
    ⟨cp1256_safe, cp1256_chkDec, cp1256_chkInv⟩,
    ⟨cp1257_safe, cp1257_chkDec, cp1257_chkInv⟩,
    ⟨cp437_safe, cp437_chkDec, cp437_chkInv⟩,
    ⟨cp737_safe, cp737_chkDec, cp737_chkInv⟩,
    ⟨cp775_safe, cp775_chkDec, cp775_chkInv⟩,
    ⟨cp850_safe, cp850_chkDec, cp850_chkInv⟩,
    ⟨cp852_safe, cp852_chkDec, cp852_chkInv⟩, by simp⟩

end Reiconv
