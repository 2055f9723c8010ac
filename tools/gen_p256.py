# Writes lean/Verif/P256/Steps.lean (run in that directory): the slopes of the double-and-add multiplication of the base point.
p=2**256-2**224+2**192+2**96-1; q=0xffffffff00000000ffffffffffffffffbce6faada7179e84f3b9cac2fc632551
b=0x5ac635d8aa3a93e7b3ebbd55769886bc651d06b0cc53b0f63bce3c3e27d2604b
gx=0x6b17d1f2e12c4247f8bce6e563a440f277037d812deb33a0f4a13945d898c296
gy=0x4fe342e2fe1a7f9b8ee7eb4a7c0f9e162bce33576b315ececbb6406837bf51f5
assert (gy*gy-gx**3+3*gx-b)%p==0
x,y=gx,gy
steps=[]
for c in bin(q-1)[3:]:
    l=(3*x*x-3)*pow(2*y,-1,p)%p
    x3=(l*l-2*x)%p; y3=(l*(x-x3)-y)%p; x,y=x3,y3
    m=0
    if c=='1':
        m=(y-gy)*pow(x-gx,-1,p)%p
        x3=(m*m-x-gx)%p; y3=(m*(gx-x3)-gy)%p; x,y=x3,y3
    steps.append((c=='1',l,m))
assert (x,y)==(gx,p-gy)
o=open('Steps.lean','w')
o.write('''import Mathlib.Data.Nat.Notation
/-!
# The slopes met when the base point of P-256 is multiplied by the group order minus one

Generated by tools/gen_p256.py: for each bit of the number but the first, the slope of the tangent in the doubling and, if the bit
is one, the slope of the line in the addition of the base point. Nothing is assumed of these numbers: `Verif.P256.Curve` checks them.
-/
namespace Migp.P256

@[irreducible] def steps : List (Bool × ℕ × ℕ) := [
''')
o.write(',\n'.join('  (%s, 0x%x, 0x%x)'%('true' if s[0] else 'false',s[1],s[2]) for s in steps))
o.write(']\n\nend Migp.P256\n')
