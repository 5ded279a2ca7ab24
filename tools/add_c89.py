import sys; sys.path.insert(0,'/tmp/w'); from meta import *
A=lambda *x:["src/quaternion.rs: "+y for y in x]
prop('C89',title='Quaternion inverse: accuracy',statement='For finite q of exact squared length Q within 2^-100..2^124, inv(q) returns the conjugate scaled by one number k with 1-2^-20 <= kQ <= 9/8(1+2^-20), each component correctly rounded; hence the exact product q*inv(q) has real part within 1-2^-19..9/8+2^-19 and imaginary parts at most 2^-21.',quantifier='all finite quaternions of squared length within 2^-100..2^124, all build modes',why_tests_cant='four independent floats over 220 binades',anchors=A('Quaternion::inv','Quaternion::conj','Quaternion::norm')+["src/float/inv.rs: F32::inv"])
prop('C90',title='rotate: error against the exact sandwich product; length',statement='For finite q and v in range, each component of rotate(q,v) is finite and within 11*2^-24*|q|^2*(|x|+|y|+|z|) + tiny of the exact q v q*; rotating by a quaternion of squared length within 0.92..1.08 changes the squared length of v by a factor within 0.84..1.17.',quantifier='all finite quaternions and vectors of every component type, below overflow',why_tests_cant='seven independent floats; accumulated rounding error of 40 operations',anchors=A('Quaternion::rotate','impl Mul<Vector3d<C>> for Quaternion'))
prop('C91',title='from_two_vectors rotates u towards v',statement='For vectors of squared length within 2^-28..2^60, from_two_vectors(u,v) returns a quaternion of squared length within 0.9299..1.0701; with c the cosine of the angle, c >= -0.9, the squared distance between the direction of rotate(u) and the direction of v is at most 0.0055 + 0.004(1-c)/(1+c); below 0.1 in distance for angles up to 90 degrees. The same for integer vectors whose dot products do not overflow.',quantifier='all f32 vectors in range; all i8, u8, i16, u16 vectors without overflow',why_tests_cant='six independent floats; the only test is one pair of vectors',anchors=A('Quaternion::from_two_vectors','Quaternion::rotate'))
prop('C92',title='from_two_vectors: equal, opposite and zero vectors',statement='from_two_vectors(u,u) has imaginary part exactly +0 and real part within 0.96..1.04. For v = -u the result is either a half turn about an axis orthogonal to u (to 2^-22) or a real quaternion; the latter violates the contract and happens for u = (1,1,1), where rotating u gives 0.934 u instead of -u. From a zero vector the result has real part 0.863 and imaginary part zero, not a unit quaternion.',quantifier='all f32 vectors u of squared length within 2^-28..2^60; all v for the zero vector',why_tests_cant='depends on the rounding of sqrt for every vector',anchors=A('Quaternion::from_two_vectors')+["src/float/sqrt.rs: F32::sqrt"])
prop('C93',title='from_two_vectors: panics',statement='For f32 vectors of squared length at most 2^60, zero included, from_two_vectors returns in every build mode; without overflow checks it never panics on any bit patterns; for integer vectors it panics exactly when one of the dot products u.u, v.v, u.v panics.',quantifier='all such vectors, all build modes',why_tests_cant='absence of panics over all inputs',anchors=A('Quaternion::from_two_vectors')+["src/vector/vector3d.rs: Vector3d::dot","src/float/invsqrt.rs: F32::invsqrt"])
claim('C89','proved',['C89_inv','C89_inv_mul'],'')
claim('C90','proved',['C90_rotate_err','C90_rotate_length'],'')
claim('C91','proved',['C91_unit','C91_turns','C91_right_angle','C91_turns_int'],'')
claim('C92','proved',['C92_same','C92_opposite','C92_opposite_missed','C92_zero'],'The contract violation for opposite vectors is proved by evaluation at (1,1,1).')
claim('C93','proved',['C93_f32','C93_unchecked','C93_int'],'')
save()
