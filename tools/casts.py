"""Generates lean/Verif/Proofs/YyLast.lean: a certificate which tokens may be the last one read in a state of the
generated parser.  Nothing here is trusted: the kernel checks the certificate (Verif.Proofs.YyCasts)."""
import sys, collections
sys.argv = ['x']
sys.path.insert(0, __file__.rsplit('/', 1)[0])
from yacc import *

RULE = 612                      # value_expression: TYPECAST simple_convert_type
T = tcode['TYPECAST']

# LAST[s]: the tokens that may be the last one read when s is the state on top
LAST = [set() for _ in range(nstates)]
for s in kern:
    if s and Chk[s] > 0: LAST[s].add(Chk[s])
comp = [(s, r) for s in kern for r, d in kern[s] if r and d and d == len(RHS[r])]
eps = [(s, trans[(s, -LHS[r])]) for s in kern for A in cl[s] for r in byl[A] if r and not RHS[r]]
byacc = collections.defaultdict(list)
for s in kern:
    if s and Chk[s] < 0: byacc[-Chk[s]].append(s)
changed = True
while changed:
    changed = False
    ends = collections.defaultdict(set)
    for s, r in comp: ends[LHS[r]] |= LAST[s]
    for A, l in byacc.items():
        for n in l:
            if not ends[A] <= LAST[n]: LAST[n] |= ends[A]; changed = True
    for q, n in eps:
        if not LAST[q] <= LAST[n]: LAST[n] |= LAST[q]; changed = True

CAST = {s for s in kern if (RULE, 1) in kern[s]}
assert len(CAST) == 1
X = CAST.pop()
openers = set().union(*(LAST[s] for s in kern if trans.get((s, T)) == X))
closed = {s for s in kern if LAST[s] <= openers}
ends = {LHS[r] for s, r in comp if s not in closed}
bits = lambda S: sum(1 << x for x in S)

if __name__ == '__main__':
    with open(LEAN + '/Proofs/YyLast.lean', 'w') as out:
        print("""/-! Generated by tools/casts.py. Nothing here is trusted: the kernel checks it (Verif.Proofs.YyCasts). -/
namespace Sqldef.Yy

/-- The state after a `::` without a left operand. -/
def castState : Nat := nat_lit %d

/-- The tokens after which an operand is due, by number:
%s. -/
def openerBits : Nat := nat_lit %d

/-- The states in which one of them was the last token. -/
def closedBits : Nat := nat_lit %d

/-- The nonterminals that may end otherwise. -/
def endsBits : Nat := nat_lit %d

end Sqldef.Yy""" % (X, ' '.join(toknames[t - 1].replace("'", '') for t in sorted(openers)), bits(openers), bits(closed), bits(ends)), file=out)
    print([toknames[t - 1] for t in sorted(openers)])
