import sys; sys.path.insert(0,'/tmp/w')
from meta import props,man
how={
'C01-C03':("`abs`, `copysign`, `signum` on bits","field arithmetic on sign and magnitude bits"),
'C04-C07':("`trunc`, `fract` with shift amounts modulo 32","field arithmetic; values above 2^32 by scaling with 2^(32k)"),
'C08-C11':("`floor`, `ceil`, `round` via the saturating `as i32`","integer floor characterisation of the cast; rounding of x+0.5 analysed on ties"),
'C12-C13':("`%`, `rem_euclid`, `div_euclid`","exact integer remainder; monotone rounding"),
'C14-C20':("`sqrt`, `invsqrt`, `inv`","the bit tricks as piecewise linear functions; integer inequalities on mantissas"),
'C21':("`recip`","error propagation through the Horner form, scaling by powers of two"),
'C22':("`hypot`","rounding error + C14"),
'C23-C26':("`powi`, loop with fuel equal to the bit length (divergence is a value)","induction on the bits of n"),
'C27-C28,C45':("`exp`, `cosh`, `set_exponent` with its `debug_assert!`","range reduction, Taylor remainder in `Real.exp`, threshold analysis on neighbouring floats"),
'C29-C32':("`ln`, `log2`, `log10`, `log`","minimax polynomial against `Real.log` through artanh series; `inv` error for x < 1"),
'C33,C85-C88':("`powf`, `is_integer`, `is_even`","field arithmetic for the classification; C28 + C29/C30 for accuracy"),
'C34-C37,C83':("`cos`, `sin`, `tan`, `sin_cos`","range reduction error + polynomial bound for `Real.cos`"),
'C38-C41,C81':("`atan`, `atan_norm`, `atan2`, `atan2_norm`","symmetry by bits; `Real.arctan` bound by polynomial positivity"),
'C42-C44,C82,C84':("`asin`, `acos`","range, panic and accuracy from C14, C17, C38"),
'C46-C50':("`mul_add`, `F32Ext`, `From`, comparisons, `Sum`, `Product`","computation, exactness lemma, induction over lists"),
'C51-C63':("`Vector2d`, `Vector3d`, `Iter`, `Vector`","case analysis, induction over iterators, ring identities"),
'C64-C74':("`Quaternion`","exactness lemma, error propagation, ring identities"),
'C75-C80':("`Mean`, `Variance`, `StdDev`, `Trim`","induction over lists"),
}
try:
    exec(open('/tmp/w/how_extra.py').read())
except FileNotFoundError: pass
rows="\n".join(f"| {k} | {a} | {b} |" for k,(a,b) in how.items())
st={c['property']:c for c in man['claims']}
det=[]
for d in props:
    c=st.get(d['id'])
    det.append(f"| {d['id']} | {d['title']} | {c['status'] if c else 'open'} | {', '.join('`'+t.split('.')[-1]+'`' for t in c['theorems']) if c else ''} |")
text=open('/tmp/w/design_head.md').read().replace('@@ROWS@@',rows).replace('@@DET@@',"\n".join(det))

import json,textwrap
g=json.load(open('/tmp/w/axg.json'))
out=[]
for k,lab in (('','no axiom'),('propext','`propext` only'),('propext, Quot.sound','`propext` and `Quot.sound` only')):
    names=', '.join('`'+t.split('.')[-1]+'`' for t in g.get(k,[]))
    out.append(textwrap.fill(f'* {lab}: {names};',width=118,initial_indent='   ',subsequent_indent='     ',break_long_words=False,break_on_hyphens=False))
assert set(g)<={'','propext','propext, Quot.sound','propext, Classical.choice, Quot.sound'},set(g)
text=text.replace('@@AX@@','\n'.join(out))
open('/verif/DESIGN.md','w').write(text)
