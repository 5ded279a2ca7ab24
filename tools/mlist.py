import sys; sys.path.insert(0,'/tmp/w')
from mut import *
Q='Quaternion.lean';F='Float.lean';V='Vector.lean';S='Statistics.lean';C='Component.lean';X='Extras.lean'
L=[
('M09',['F32.copysign'],F,[("let signlessDestinationBits := x.toBits &&& ~~~SIGN_MASK","let signlessDestinationBits := x.toBits")],"C02: copysign takes the sign of its second argument only"),
('M10',['F32.trunc'],F,[("if exponent < 0 then ZERO.copysign x","if exponent < 0 then ZERO")],"C04: trunc keeps the sign of a zero result"),
('M11',['F32.fract','F32.fractR'],F,[("let exponentShift := clz32 fractionalPart - (32 - MANTISSA_BITS) + 1","let exponentShift := clz32 fractionalPart - (32 - MANTISSA_BITS)")],"C06: fract is x - trunc x"),
('M12',['F32.ceil'],F,[("def ceil (x : F32) : F32 := -((-x).floor)","def ceil (x : F32) : F32 := x.floor + one")],"C09: ceil of an integer is that integer"),
('M13',['F32.divEuclid'],F,[("else if rhs.gt ZERO then q - ONE\n  else q + ONE","else q - ONE")],"C13: division identity with negative divisors"),
('M14',['F32.inv'],F,[("fromBits (0x7f000000#32 - x.toBits)","fromBits (0x7ef00000#32 - x.toBits)")],"C19: 1 <= x*inv(x) <= 9/8"),
('M15',['F32.recip'],F,[("-(lit 70 1)","-(lit 60 1)")],"C21: recip within 1.2e-5"),
('M16',['F32.hypot'],F,[("(x * x + rhs * rhs).sqrt","(x * x + x * rhs).sqrt")],"C22: hypot accuracy and symmetry"),
('M17',['F32.atanNorm'],F,[("let n := bxA + x * x\n  let atan1q := n / (one + bxA + n)","let n := bxA + x * x\n  let atan1q := n / (one + n)")],"C38: atan accuracy"),
('M18',['F32.atan2Norm'],F,[("||| (uxS >>> 30)","||| (uyS >>> 30)")],"C40: atan2 quadrant"),
('M19',['F32.atan2'],F,[("if n.gt (lit 2 1) then n - lit 4 1 else n","n")],"C40: atan2 within [-pi, pi]"),
('M20',['F32.asin'],F,[("let r ← (ONE - x * x).invsqrt","let r ← (ONE - x).invsqrt")],"C82: asin accuracy"),
('M21',['F32.acos'],F,[("else ((ONE - x * x).sqrt / x).atan + PI","else ((ONE - x * x).sqrt / x).atan")],"C44/C84: acos of negative arguments"),
('M22',['F32.cos'],F,[("let x := x + lit 225 1000 * x * (x.abs - one)","let x := x + lit 225 1000 * x * x.abs")],"C34: cos error at most 0.002"),
('M23',['F32.sin'],F,[("def sin (x : F32) : F32 := (x - PI / lit 2 1).cos","def sin (x : F32) : F32 := (x + PI / lit 2 1).cos")],"C36: sin has the right sign"),
('M24',['F32.tan'],F,[("x.sin / x.cos","x.cos / x.sin")],"C37: tan is sin/cos"),
('M25',['F32.expSmallx'],F,[("((i : Int) + 1)","((i : Int) + 2)")],"C28: exp accuracy"),
('M26',['F32.expLn2Approx'],F,[("if fractExponent < -(EXPONENT_BIAS : Int) then","if fractExponent < 0 then")],"C28: exp of negative arguments is not zero"),
('M27',['F32.cosh'],F,[("let expNegX ← (-x).exp","let expNegX ← x.exp")],"C45: cosh is even"),
('M28',['F32.lnPoly'],F,[("lit 44717955 100000000","lit 44717955 10000000")],"C29: ln accuracy"),
('M29',['F32.ln'],F,[("if xLessThan1 then -result else result","result")],"C30: ln negative on (0,1)"),
('M30',['F32.log'],F,[("(ONE / base.ln) * x.ln","(ONE / x.ln) * base.ln")],"C32: log to base b"),
('M31',['F32.powf'],F,[("else if n.isEven then (n * x.withoutSign.ln).exp","else if !n.isEven then (n * x.withoutSign.ln).exp")],"C33: sign of powf on negative bases"),
('M32',['F32.powiLoop'],F,[("powiLoop fuel absN (base * base) result","powiLoop fuel absN (base * result) result")],"C24: powi accuracy"),
('M33',['Vector3d.cross'],V,[("let y ← Component.sub y1 y2","let y ← Component.sub y2 y1")],"C57: cross product"),
('M34',['Vector2d.perpendicularDot'],V,[("let a ← Component.mul self.x rhs.y\n  let b ← Component.mul self.y rhs.x\n  Component.sub a b","let a ← Component.mul self.x rhs.y\n  let b ← Component.mul self.y rhs.x\n  Component.sub b a")],"C59: perpendicular_dot is the z of the cross product"),
('M35',['Vector3d.fromIter'],V,[("if (it 3).isNone then .ok ⟨x, y, z⟩ else .error .assertFailed",".ok ⟨x, y, z⟩")],"C52: from_iter rejects more than three items"),
('M36',['Vector2d.divAssign'],V,[("  .ok { self with y := y }\n\n/-- `Sum`: src/vector/vector2d","  .ok self\n\n/-- `Sum`: src/vector/vector2d")],"C54: DivAssign divides every component"),
('M37',['VectorTrait.distance'],V,[("IntoF32.into ab.1 - IntoF32.into ab.2","IntoF32.into ab.1 + IntoF32.into ab.2")],"C62: distance"),
('M38',['VectorTrait.normalized'],V,[("let norm := VectorTrait.magnitude self","let norm := F32.sum (VectorTrait.items self)")],"C63: normalized has length near one"),
('M39',['Statistics.mean'],S,[(".ok (sum / ofInt numItems)",".ok (sum / ofInt (numItems - 1))")],"C75: mean"),
('M40',['Statistics.variance'],S,[("(ofInt l.length - one)","ofInt l.length")],"C76: sample variance divides by n-1"),
('M41',['Statistics.TrimIter.new'],S,[("stddev := F32Ext.sqrt var","stddev := var")],"C80: trim uses the standard deviation"),
('M42',['Quaternion.inv'],Q,[("q.conj.scale (F32.inv norm)","q.scale (F32.inv norm)")],"inverse of a quaternion uses the conjugate"),
('M43',['Quaternion.rotate'],Q,[("(two * (qx * qy - qw * qz)) * vy","(two * (qx * qy + qw * qz)) * vy")],"C71: rotate is the sandwich product"),
('M44',['Quaternion.axisAngle'],Q,[("IntoF32.into theta * lit 5 10","IntoF32.into theta")],"C74: axis_angle halves the angle"),
('M45',['Quaternion.toEuler'],Q,[("let p ← (two * (q.a * q.c - q.b * q.d)).asin","let p ← (two * (q.a * q.c + q.b * q.d)).asin")],"pitch of to_euler"),
('M46',['Quaternion.fromTwoVectors'],Q,[("uy * vz - uz * vy","uz * vy - uy * vz")],"axis of from_two_vectors"),
('M47',['MInt.div'],C,[(".ok (wrap (x.toInt.tdiv y.toInt))",".ok (wrap (x.toInt.fdiv y.toInt))")],"C54: integer division truncates"),
('M48',['F32Ext.log2'],X,[("def log2 (x : F32) : F32 := F32.log2 x","def log2 (x : F32) : F32 := F32.log10 x")],"C47: F32Ext agrees with F32"),
('M49',['Quaternion.normalize'],Q,[(".ok (q.scale n)",".ok (q.scale (n * n))")],"C70: normalize gives near-unit length"),
('M50',['Quaternion.conj'],Q,[("⟨q.a, -q.b, -q.c, -q.d⟩","⟨-q.a, -q.b, -q.c, -q.d⟩")],"C64: conj keeps the real part"),
]
if __name__=='__main__':
    if sys.argv[1]=='prep': prep()
    else:
        want=sys.argv[1:]
        done={json.loads(l)['id'] for l in open(LOG)} if os.path.exists(LOG) else set()
        for m in L:
            if want!=['all'] and m[0] not in want: continue
            if m[0] in done: continue
            run(*m)
