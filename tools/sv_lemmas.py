#!/usr/bin/env python3
"""Writes the parts of Verif/SV/Unroll.lean which are the same for 1, 2, 4, 8, 16 and 32 lanes."""
import sys

NS = [1, 2, 4, 8, 16, 32]
o = []
o.append('''/-
  Generated by tools/sv_lemmas.py: quantifiers over 1, 2, 4, 8, 16 and 32 lanes, written out.
-/
import Verif.SV.Lemmas
set_option autoImplicit false

namespace LFA.SV
section
variable {w : Nat}
''')


def add(p, k):
    return p if k == 0 else '%s + %d' % (p, k)


for n in NS:
    o.append('theorem at%d {m : Mem w} {p : Int} {g : Nat → BitVec w} (h : At m p %d g) :' % (n, n))
    o.append('    ' + ' ∧\n    '.join('m (%s) = some (g %d)' % (add('p', k), k) for k in range(n)) + ' :=')
    items = ['by simpa using h 0 (by decide)'] + ['h %d (by decide)' % k for k in range(1, n)]
    o.append('  ' + ('⟨' + ', '.join(items) + '⟩' if n > 1 else items[0]))
    o.append('')
    o.append('theorem all%d {P : Nat → Prop} (h : ∀ k, k < %d → P k) :' % (n, n))
    o.append('    ' + ' ∧ '.join('P %d' % k for k in range(n)) + ' :=')
    items = ['h %d (by decide)' % k for k in range(n)]
    o.append('  ' + ('⟨' + ', '.join(items) + '⟩' if n > 1 else items[0]))
    o.append('')
    o.append('theorem ofAll%d {P : Nat → Prop} (h : %s) : ∀ k, k < %d → P k' % (n, ' ∧ '.join('P %d' % k for k in range(n)), n))
    for k in range(n):
        if n == 1:
            t = 'h'
        else:
            t = 'h' + '.2' * k + ('.1' if k < n - 1 else '')
        o.append('  | %d, _ => %s' % (k, t))
    o.append('  | k + %d, hk => absurd hk (by omega)' % n)
    o.append('')
    o.append('theorem rm%d {α : Type} (g : Nat → α) : (List.range %d).map g = [%s] := rfl'
             % (n, n, ', '.join('g %d' % k for k in range(n))))
    o.append('')
    o.append('theorem len%d {α : Type} {l : List α} (h : l.length = %d) : ∃ %s, l = [%s] := by'
             % (n, n, ' '.join('b%d' % k for k in range(n)), ', '.join('b%d' % k for k in range(n))))
    o.append('  match l, h with')
    o.append('  | [%s], _ => exact ⟨%s, rfl⟩' % (', '.join('b%d' % k for k in range(n)), ', '.join('b%d' % k for k in range(n))))
    o.append('')
for n in NS:
    bs = ', '.join('b%d' % k for k in range(n))
    o.append('theorem rep%d {b : Nat} {m : BitVec b} {%s : Bool} (h : ∀ i, m.getLsbD i = [%s].getD i false) :'
             % (n, bs.replace(',', ''), bs))
    o.append('    ' + ' ∧ '.join('m.getLsbD %d = b%d' % (k, k) for k in range(n)) + ' :=')
    o.append('  ' + ('⟨' + ', '.join('h %d' % k for k in range(n)) + '⟩' if n > 1 else 'h 0'))
    o.append('')
for k in range(32):
    o.append('theorem bit%d (x : BitVec 32) : (x &&& (%d : BitVec 32) != 0) = x.getLsbD %d := bitTest x %d (by decide)'
             % (k, 2 ** k, k, k))
    o.append('theorem pbit%d {b : Nat} (m : BitVec b) : (promote m &&& (%d : BitVec 32) != 0) = m.getLsbD %d := pbit m %d (by decide)'
             % (k, 2 ** k, k, k))
o.append('')
o.append('/-! ### Masks as sums: `(c0 << 0) + (c1 << 1) + …` -/')
o.append('')
o.append('theorem mask0 (c : Bool) : b2i c <<< 0 = ofBools 32 [c] := by cases c <;> decide')
for k in range(1, 32):
    cs = ['c%d' % i for i in range(k)]
    o.append('theorem mask%d (%s c : Bool) : iadd (ofBools 32 [%s]) (b2i c <<< %d) = some (ofBools 32 [%s, c]) := maskStep _ c (by simp)'
             % (k, ' '.join(cs), ', '.join(cs), k, ', '.join(cs)))
o.append('''
end
end LFA.SV
''')
open(sys.argv[1], 'w').write('\n'.join(o))
