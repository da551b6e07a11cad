import Verif.Gen.SbTables
import Verif.Gen.SbData4

/-!
# Checks of single-byte encodings against the reference tables

Generated by `tools/gensb.py`. Every byte and every character covered by a branch is
evaluated by the kernel.
-/

namespace Reiconv

theorem ebcdic1137_safe : ebcdic1137_sb.safe = true := by decide +kernel
theorem ebcdic1137_chkDec : chkDec ebcdic1137_sb ebcdic1137_from = true := by decide +kernel
theorem ebcdic1137_chkInv : chkInv ebcdic1137_sb ebcdic1137_irr = true := by decide +kernel

theorem ebcdic1140_safe : ebcdic1140_sb.safe = true := by decide +kernel
theorem ebcdic1140_chkDec : chkDec ebcdic1140_sb ebcdic1140_from = true := by decide +kernel
theorem ebcdic1140_chkInv : chkInv ebcdic1140_sb ebcdic1140_irr = true := by decide +kernel

theorem ebcdic1141_safe : ebcdic1141_sb.safe = true := by decide +kernel
theorem ebcdic1141_chkDec : chkDec ebcdic1141_sb ebcdic1141_from = true := by decide +kernel
theorem ebcdic1141_chkInv : chkInv ebcdic1141_sb ebcdic1141_irr = true := by decide +kernel

theorem ebcdic1142_safe : ebcdic1142_sb.safe = true := by decide +kernel
theorem ebcdic1142_chkDec : chkDec ebcdic1142_sb ebcdic1142_from = true := by decide +kernel
theorem ebcdic1142_chkInv : chkInv ebcdic1142_sb ebcdic1142_irr = true := by decide +kernel

theorem ebcdic1143_safe : ebcdic1143_sb.safe = true := by decide +kernel
theorem ebcdic1143_chkDec : chkDec ebcdic1143_sb ebcdic1143_from = true := by decide +kernel
theorem ebcdic1143_chkInv : chkInv ebcdic1143_sb ebcdic1143_irr = true := by decide +kernel

theorem ebcdic1144_safe : ebcdic1144_sb.safe = true := by decide +kernel
theorem ebcdic1144_chkDec : chkDec ebcdic1144_sb ebcdic1144_from = true := by decide +kernel
theorem ebcdic1144_chkInv : chkInv ebcdic1144_sb ebcdic1144_irr = true := by decide +kernel

theorem ebcdic1145_safe : ebcdic1145_sb.safe = true := by decide +kernel
theorem ebcdic1145_chkDec : chkDec ebcdic1145_sb ebcdic1145_from = true := by decide +kernel
theorem ebcdic1145_chkInv : chkInv ebcdic1145_sb ebcdic1145_irr = true := by decide +kernel

theorem ebcdic1146_safe : ebcdic1146_sb.safe = true := by decide +kernel
theorem ebcdic1146_chkDec : chkDec ebcdic1146_sb ebcdic1146_from = true := by decide +kernel
theorem ebcdic1146_chkInv : chkInv ebcdic1146_sb ebcdic1146_irr = true := by decide +kernel

theorem ebcdic1147_safe : ebcdic1147_sb.safe = true := by decide +kernel
theorem ebcdic1147_chkDec : chkDec ebcdic1147_sb ebcdic1147_from = true := by decide +kernel
theorem ebcdic1147_chkInv : chkInv ebcdic1147_sb ebcdic1147_irr = true := by decide +kernel

theorem ebcdic1148_safe : ebcdic1148_sb.safe = true := by decide +kernel
theorem ebcdic1148_chkDec : chkDec ebcdic1148_sb ebcdic1148_from = true := by decide +kernel
theorem ebcdic1148_chkInv : chkInv ebcdic1148_sb ebcdic1148_irr = true := by decide +kernel

theorem ebcdic1149_safe : ebcdic1149_sb.safe = true := by decide +kernel
theorem ebcdic1149_chkDec : chkDec ebcdic1149_sb ebcdic1149_from = true := by decide +kernel
theorem ebcdic1149_chkInv : chkInv ebcdic1149_sb ebcdic1149_irr = true := by decide +kernel

theorem ebcdic1153_safe : ebcdic1153_sb.safe = true := by decide +kernel
theorem ebcdic1153_chkDec : chkDec ebcdic1153_sb ebcdic1153_from = true := by decide +kernel
theorem ebcdic1153_chkInv : chkInv ebcdic1153_sb ebcdic1153_irr = true := by decide +kernel

theorem ebcdic1154_safe : ebcdic1154_sb.safe = true := by decide +kernel
theorem ebcdic1154_chkDec : chkDec ebcdic1154_sb ebcdic1154_from = true := by decide +kernel
theorem ebcdic1154_chkInv : chkInv ebcdic1154_sb ebcdic1154_irr = true := by decide +kernel

theorem ebcdic1155_safe : ebcdic1155_sb.safe = true := by decide +kernel
theorem ebcdic1155_chkDec : chkDec ebcdic1155_sb ebcdic1155_from = true := by decide +kernel
theorem ebcdic1155_chkInv : chkInv ebcdic1155_sb ebcdic1155_irr = true := by decide +kernel

theorem ebcdic1156_safe : ebcdic1156_sb.safe = true := by decide +kernel
theorem ebcdic1156_chkDec : chkDec ebcdic1156_sb ebcdic1156_from = true := by decide +kernel
theorem ebcdic1156_chkInv : chkInv ebcdic1156_sb ebcdic1156_irr = true := by decide +kernel

theorem ebcdic1157_safe : ebcdic1157_sb.safe = true := by decide +kernel
theorem ebcdic1157_chkDec : chkDec ebcdic1157_sb ebcdic1157_from = true := by decide +kernel
theorem ebcdic1157_chkInv : chkInv ebcdic1157_sb ebcdic1157_irr = true := by decide +kernel

theorem ebcdic1158_safe : ebcdic1158_sb.safe = true := by decide +kernel
theorem ebcdic1158_chkDec : chkDec ebcdic1158_sb ebcdic1158_from = true := by decide +kernel
theorem ebcdic1158_chkInv : chkInv ebcdic1158_sb ebcdic1158_irr = true := by decide +kernel

theorem ebcdic1160_safe : ebcdic1160_sb.safe = true := by decide +kernel
theorem ebcdic1160_chkDec : chkDec ebcdic1160_sb ebcdic1160_from = true := by decide +kernel
theorem ebcdic1160_chkInv : chkInv ebcdic1160_sb ebcdic1160_irr = true := by decide +kernel

theorem ebcdic1164_safe : ebcdic1164_sb.safe = true := by decide +kernel
theorem ebcdic1164_chkDec : chkDec ebcdic1164_sb ebcdic1164_from = true := by decide +kernel
theorem ebcdic1164_chkInv : chkInv ebcdic1164_sb ebcdic1164_irr = true := by decide +kernel

theorem ebcdic1165_safe : ebcdic1165_sb.safe = true := by decide +kernel
theorem ebcdic1165_chkDec : chkDec ebcdic1165_sb ebcdic1165_from = true := by decide +kernel
theorem ebcdic1165_chkInv : chkInv ebcdic1165_sb ebcdic1165_irr = true := by decide +kernel

theorem ebcdic1166_safe : ebcdic1166_sb.safe = true := by decide +kernel
theorem ebcdic1166_chkDec : chkDec ebcdic1166_sb ebcdic1166_from = true := by decide +kernel
theorem ebcdic1166_chkInv : chkInv ebcdic1166_sb ebcdic1166_irr = true := by decide +kernel

theorem ebcdic12712_safe : ebcdic12712_sb.safe = true := by decide +kernel
theorem ebcdic12712_chkDec : chkDec ebcdic12712_sb ebcdic12712_from = true := by decide +kernel
theorem ebcdic12712_chkInv : chkInv ebcdic12712_sb ebcdic12712_irr = true := by decide +kernel

theorem ebcdic16804_safe : ebcdic16804_sb.safe = true := by decide +kernel
theorem ebcdic16804_chkDec : chkDec ebcdic16804_sb ebcdic16804_from = true := by decide +kernel
theorem ebcdic16804_chkInv : chkInv ebcdic16804_sb ebcdic16804_irr = true := by decide +kernel

/-- The encodings of this file with their reference tables. -/
def sbGroup4 : List (SB × List (Nat × Nat) × List (Nat × Nat)) :=
  [(ebcdic1137_sb, ebcdic1137_from, ebcdic1137_irr),
    (ebcdic1140_sb, ebcdic1140_from, ebcdic1140_irr),
    (ebcdic1141_sb, ebcdic1141_from, ebcdic1141_irr),
    (ebcdic1142_sb, ebcdic1142_from, ebcdic1142_irr),
    (ebcdic1143_sb, ebcdic1143_from, ebcdic1143_irr),
    (ebcdic1144_sb, ebcdic1144_from, ebcdic1144_irr),
    (ebcdic1145_sb, ebcdic1145_from, ebcdic1145_irr),
    (ebcdic1146_sb, ebcdic1146_from, ebcdic1146_irr),
    (ebcdic1147_sb, ebcdic1147_from, ebcdic1147_irr),
    (ebcdic1148_sb, ebcdic1148_from, ebcdic1148_irr),
    (ebcdic1149_sb, ebcdic1149_from, ebcdic1149_irr),
    (ebcdic1153_sb, ebcdic1153_from, ebcdic1153_irr),
    (ebcdic1154_sb, ebcdic1154_from, ebcdic1154_irr),
    (ebcdic1155_sb, ebcdic1155_from, ebcdic1155_irr),
    (ebcdic1156_sb, ebcdic1156_from, ebcdic1156_irr),
    (ebcdic1157_sb, ebcdic1157_from, ebcdic1157_irr),
    (ebcdic1158_sb, ebcdic1158_from, ebcdic1158_irr),
    (ebcdic1160_sb, ebcdic1160_from, ebcdic1160_irr),
    (ebcdic1164_sb, ebcdic1164_from, ebcdic1164_irr),
    (ebcdic1165_sb, ebcdic1165_from, ebcdic1165_irr),
    (ebcdic1166_sb, ebcdic1166_from, ebcdic1166_irr),
    (ebcdic12712_sb, ebcdic12712_from, ebcdic12712_irr),
    (ebcdic16804_sb, ebcdic16804_from, ebcdic16804_irr)]

theorem sbGroup4_ok : ∀ t ∈ sbGroup4, t.1.safe = true ∧ chkDec t.1 t.2.1 = true ∧ chkInv t.1 t.2.2 = true := by
  unfold sbGroup4
  simp only [List.forall_mem_cons]
  exact ⟨⟨ebcdic1137_safe, ebcdic1137_chkDec, ebcdic1137_chkInv⟩,
    ⟨ebcdic1140_safe, ebcdic1140_chkDec, ebcdic1140_chkInv⟩,
    ⟨ebcdic1141_safe, ebcdic1141_chkDec, ebcdic1141_chkInv⟩,
    ⟨ebcdic1142_safe, ebcdic1142_chkDec, ebcdic1142_chkInv⟩,
    ⟨ebcdic1143_safe, ebcdic1143_chkDec, ebcdic1143_chkInv⟩,
    ⟨ebcdic1144_safe, ebcdic1144_chkDec, ebcdic1144_chkInv⟩,
    ⟨ebcdic1145_safe, ebcdic1145_chkDec, ebcdic1145_chkInv⟩,
    ⟨ebcdic1146_safe, ebcdic1146_chkDec, ebcdic1146_chkInv⟩,
    ⟨ebcdic1147_safe, ebcdic1147_chkDec, ebcdic1147_chkInv⟩,
    ⟨ebcdic1148_safe, ebcdic1148_chkDec, ebcdic1148_chkInv⟩,
    ⟨ebcdic1149_safe, ebcdic1149_chkDec, ebcdic1149_chkInv⟩,
    ⟨ebcdic1153_safe, ebcdic1153_chkDec, ebcdic1153_chkInv⟩,
    ⟨ebcdic1154_safe, ebcdic1154_chkDec, ebcdic1154_chkInv⟩,
    ⟨ebcdic1155_safe, ebcdic1155_chkDec, ebcdic1155_chkInv⟩,
    ⟨ebcdic1156_safe, ebcdic1156_chkDec, ebcdic1156_chkInv⟩,
    ⟨ebcdic1157_safe, ebcdic1157_chkDec, ebcdic1157_chkInv⟩,
    ⟨ebcdic1158_safe, ebcdic1158_chkDec, ebcdic1158_chkInv⟩,
    ⟨ebcdic1160_safe, ebcdic1160_chkDec, ebcdic1160_chkInv⟩,
    ⟨ebcdic1164_safe, ebcdic1164_chkDec, ebcdic1164_chkInv⟩,
    ⟨ebcdic1165_safe, ebcdic1165_chkDec, ebcdic1165_chkInv⟩,
    ⟨ebcdic1166_safe, ebcdic1166_chkDec, ebcdic1166_chkInv⟩,
    ⟨ebcdic12712_safe, ebcdic12712_chkDec, ebcdic12712_chkInv⟩,
    ⟨ebcdic16804_safe, ebcdic16804_chkDec, ebcdic16804_chkInv⟩, by simp⟩

end Reiconv
