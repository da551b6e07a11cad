"""Generate lean/Verif/Gen/Un*.lean: the lookups of the character sets written out."""
import os, re
GEN = os.path.join(os.path.dirname(os.path.abspath(__file__)), '../lean/Verif/Gen/')
for f in sorted(os.listdir(GEN)):
    m = re.match(r'Cs(\w+)\.lean$', f)
    if not m:
        continue
    t = open(GEN + f).read()
    o = ['import Verif.Codec.Unroll\nimport Verif.Gen.Cs%s\n' % m[1],
         '/-! Generated by `tools/genun.py`: the lookups of `Gen/Cs%s.lean` written out as nested tests. -/\n' % m[1],
         'namespace Reiconv\n']
    for n in re.findall(r'def (\w+)_dec : CsDec', t):
        o.append('''noncomputable def %(n)s_decU : {f : Nat → Nat → Nat // (fun a b => %(n)s_dec.decF a b) = f} := by
  refine ⟨?m, ?h⟩
  case h => conv => lhs; unroll [CsDec.decS_eq (show %(n)s_dec.sorted = true by decide)]; unroll [%(n)s_dec]

theorem %(n)s_decU_eq (a b : Nat) : %(n)s_dec.decF a b = %(n)s_decU.val a b :=
  congrFun (congrFun %(n)s_decU.property a) b

noncomputable def %(n)s_decP : {f // %(n)s_dec.mbtowc = f} := by
  refine ⟨?m, ?h⟩
  case h => conv => lhs; unroll [CsDec.fastS_eq %(n)s_dec_safe (show %(n)s_dec.sorted = true by decide)]; unroll [%(n)s_dec]
''' % dict(n=n))
    for n in re.findall(r'def (\w+)_enc : CsEnc', t):
        o.append('''noncomputable def %(n)s_encU : {f : Nat → Nat // (fun a => %(n)s_enc.encF a) = f} := by
  refine ⟨?m, ?h⟩
  case h => conv => lhs; unroll [CsEnc.encS_eq (show %(n)s_enc.sorted = true by decide)]; unroll [%(n)s_enc]

theorem %(n)s_encU_eq (a : Nat) : %(n)s_enc.encF a = %(n)s_encU.val a := congrFun %(n)s_encU.property a
''' % dict(n=n))
    o.append('end Reiconv\n')
    open(GEN + 'Un%s.lean' % m[1], 'w').write('\n'.join(o))
