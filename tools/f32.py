import struct, math
def r(x):
    try: return struct.unpack('<f',struct.pack('<f',x))[0]
    except OverflowError: return math.copysign(math.inf,x)
def bits(x): return struct.unpack('<I',struct.pack('<f',x))[0]
def fb(b): return struct.unpack('<f',struct.pack('<I',b&0xffffffff))[0]
def inv(x):
    b=bits(x)
    if b<=0x7f000000: return fb(0x7f000000-b)
    return 0.0
C=[r(v) for v in(1.7417939,2.8212026,1.4699568,0.44717955,0.056570851)]
LN2=r(math.log(2))
def mul(a,b): return r(a*b)
def add(a,b): return r(a+b)
def sub(a,b): return r(a-b)
def poly(x):
    a=sub(C[3],mul(C[4],x)); a=add(-C[2],mul(a,x)); a=add(C[1],mul(a,x)); return add(-C[0],mul(a,x))
def lncore(w):
    b=bits(w); e=(b>>23)-127; d=fb(b&0x7f800000)
    return add(mul(float(e),LN2),poly(r(w/d)))
def ln(x):
    if abs(sub(x,1.0))<2.0**-23: return 0.0
    if x<1: return -lncore(inv(x))
    return lncore(x)
