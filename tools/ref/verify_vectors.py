import re
R='/repo/'
def bs(x):
    x=re.sub(r'//[^\n]*','',x)
    return ''.join('%02x'%int(v,0) for v in re.findall(r'0x[0-9a-fA-F]+|\d+',x))
out=open('/verif/lean/Verif/Test/Verify.lean','w')
out.write('''import Verif.Model.Cuckoo
import Verif.Model.Equihash
import Verif.Model.Beam
import Verif.Model.Heavy
import Verif.Model.Eaglesong
import Verif.Test.Blake

/-! # Conformance tests: the verifiers

All vectors of /repo/cuckoo/cuckoo_test.go, /repo/equihash/equihash_test.go, /repo/beamhashiii/beamhashiii_test.go,
/repo/eaglesong/eaglesong_test.go and /repo/internal/crypto/{siphash,xoshiro256plusplus}_test.go, with a BLAKE2b implemented from the RFC.
Each accepted solution is also run with one change, after which it has to be rejected. -/

set_option autoImplicit false

namespace Verif.Test.Verify

open Verif Go Blake

def accepted {ε : Type} (r : Go (Bool × Option ε)) : Bool := match r with
  | .ok (true, none) => true
  | _ => false

def rejected {ε : Type} (r : Go (Bool × Option ε)) : Bool := match r with
  | .ok (false, some _) => true
  | .ok (false, none) => true
  | _ => false

def bytesOk {ε : Type} (r : Go (Except ε (List Byte))) (x : List Byte) : Bool := match r with
  | .ok (.ok y) => y == x
  | _ => false

def wordsOk {ε : Type} (r : Go (Except ε (List U32))) (x : List Nat) : Bool := match r with
  | .ok (.ok y) => y.map BitVec.toNat == x
  | _ => false

''')
s=open(R+'cuckoo/cuckoo_test.go').read()
for fn,cl in (('TestAeternity','newAeternity'),('TestCortex','newCortex')):
    body=s[s.index('func '+fn):]
    body=body[:body.index('for i, tt')]
    out.write(f'-- cuckoo_test.go {fn}\n')
    for i,(h,sol) in enumerate(re.findall(r'MustDecodeHex\("([0-9a-f]+)"\),\s*sols: \[\]uint64\{([^}]*)\}',body)):
        v=[str(int(x,16)) for x in re.findall('0x[0-9a-f]+',sol)]
        out.write(f'def {cl}{i} : List Byte × List U64 := (hex "{h}",\n  [{", ".join(v)}])\n')
        out.write(f'#guard accepted (Cuckoo.verify prims Cuckoo.{cl} 100 {cl}{i}.1 {cl}{i}.2)\n')
        out.write(f'#guard rejected (Cuckoo.verify prims Cuckoo.{cl} 100 {cl}{i}.1 ({cl}{i}.2.set 7 1))\n')
        out.write(f'#guard rejected (Cuckoo.verify prims Cuckoo.{cl} 100 (({cl}{i}.1).set 7 1) {cl}{i}.2)\n')
s=open(R+'equihash/equihash_test.go').read()
body=s[s.index('func TestExpandArray'):]; body=body[:body.index('for i, tt')]
out.write('-- equihash_test.go TestExpandArray\n')
for l,p,c,e in re.findall(r'length:\s*(\d+),\s*pad:\s*(\d+),\s*compact:\s*\[\]byte\{([^}]*)\},\s*expected:\s*\[\]byte\{([^}]*)\}',body):
    out.write(f'#guard bytesOk (Equihash.expandArray (hex "{bs(c)}") {l} {p}) (hex "{bs(e)}")\n')
i0=s.index('indicesFromMinimal(')
j=s.rindex('func Test',0,i0)
body=s[j:i0]
out.write('-- equihash_test.go TestIndicesFromMinimal\n')
cnt=0
for n,k,c,e in re.findall(r'n:\s*(\d+),\s*k:\s*(\d+),\s*minimal:\s*\[\]byte\{([^}]*)\},\s*expected:\s*\[\]uint32\{([^}]*)\}',body):
    cnt+=1
    out.write(f'#guard wordsOk (Equihash.indicesFromMinimal {n} {k} (hex "{bs(c)}")) [{", ".join(re.findall("[0-9]+",e))}]\n')
print(cnt)
body=s[s.index('func TestVerifyZCash'):s.index('func TestVerifyFlux')]
soln=bs(re.search(r'soln: \[\]byte\{([^}]*)\}',body).group(1))
txt=re.search(r'\[\]byte\("([^"]*)"\)',body).group(1)
non=bs(re.search(r'\[\]byte\{\s*(1, 0[^}]*)\}',body).group(1))
out.write('-- equihash_test.go TestVerifyZCash\n')
out.write(f'def zcash : Equihash.Client := ⟨96, 5, Equihash.ascii "ZcashPoW", false⟩\ndef zcashHeader : List Byte := hex "{txt.encode().hex()+non}"\ndef zcashSoln : List Byte := hex "{soln}"\n')
out.write('#guard accepted (zcash.verify prims 100 zcashHeader zcashSoln)\n#guard rejected (zcash.verify prims 100 (zcashHeader.set 72 2) zcashSoln)\n#guard rejected (zcash.verify prims 100 zcashHeader (zcashSoln.set 0 5))\n')
body=s[s.index('func TestVerifyFlux'):]
hd=bs(re.search(r'header: \[\]byte\{([^}]*)\}',body).group(1)); soln=bs(re.search(r'soln: \[\]byte\{([^}]*)\}',body).group(1))
out.write(f'-- equihash_test.go TestVerifyFlux\ndef fluxHeader : List Byte := hex "{hd}"\ndef fluxSoln : List Byte := hex "{soln}"\n')
out.write('#guard accepted (Equihash.newFlux.verify prims 100 fluxHeader fluxSoln)\n#guard rejected (Equihash.newFlux.verify prims 100 (fluxHeader.set 72 2) fluxSoln)\n#guard rejected (Equihash.newFlux.verify prims 100 fluxHeader (fluxSoln.set 0 5))\n')
s=open(R+'beamhashiii/beamhashiii_test.go').read()
out.write('-- beamhashiii_test.go\n')
for i,(h,c) in enumerate(re.findall(r'header: \[\]byte\{([^}]*)\},\s*soln: \[\]byte\{([^}]*)\}',s)):
    out.write(f'def beam{i} : List Byte × List Byte := (hex "{bs(h)}",\n  hex "{bs(c)}")\n')
    for a,H,S in (('accepted','.1','.2'),('rejected','.1.set 39 1','.2'),('rejected','.1','.2.set 20 1')):
        out.write(f'#guard {a} (Beam.newBeam.verify prims 100 (beam{i}{H}) (beam{i}{S}))\n')
s=open(R+'internal/crypto/siphash_test.go').read()
out.write('-- siphash_test.go\n')
for t in re.findall(r'v0:\s*(\d+),\s*v1:\s*(\d+),\s*v2:\s*(\d+),\s*v3:\s*(\d+),\s*nonce:\s*(\d+),\s*result:\s*(\d+)',s):
    out.write('#guard Siphash.xorLanes (Siphash.hash24 (Siphash.newSipHasher ⟨%s, %s, %s, %s⟩) %s) == %s\n'%t)
s=open(R+'internal/crypto/xoshiro256plusplus_test.go').read()
out.write('''-- xoshiro256plusplus_test.go
def draws (n : Nat) (s : Heavy.Xoshiro) : List Nat := match n with
  | 0 => []
  | n + 1 => s.next.2.toNat :: draws n s.next.1
''')
for st,v in re.findall(r'state: \[4\]uint64\{([^}]*)\},\s*values: \[\]uint64\{([^}]*)\}',s):
    a=re.findall(r'\d+',st); b=re.findall('0x[0-9a-f]+',v)
    out.write(f'#guard draws {len(b)} ⟨{", ".join(a)}⟩ == [{", ".join(b)}]\n')
out.write('''-- eaglesong_test.go
#guard (match Eaglesong.newNervos.compute (hex "48656c6c6f2c20776f726c64210a") with
  | .ok d => d == hex "64867e2441d162615dc2430b6bcb4d3f4b95e4d0db529fca1eece73c077d72d6"
  | _ => false)

end Verif.Test.Verify
''')
