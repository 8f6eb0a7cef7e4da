def load(f):
    items={};l1=None;o={}
    for l in open(f):
        t=l.split()
        if t[0]=='item': items[int(t[1])]=t[2]
        elif t[0]=='l1': l1=t[1]
        elif t[0] in('mix','digest'): o[t[0]]=t[1]
    return items,l1,o
def chunks(h,ind): return ' ++\n'.join('%s"%s"'%(ind,h[i:i+128]) for i in range(0,len(h),128))
def body(items,l1,dflt):
    s=''
    if l1: s+='def l1 : List U32 := Dag.wordView (hex ("" ++\n'+chunks(l1,'  ')+'))\n\n'
    s+='def items : List (U32 × String) := [\n'+',\n'.join('  (%d, "" ++\n%s)'%(k,chunks(v,'    ')) for k,v in items.items())+']\n\n'
    s+='''def lookup (i : U32) : Go (List U32) :=
  match items.find? fun e => e.1 == i with
  | some e => .ok (Dag.wordView (hex e.2))
  | none => .error (.panic .index)

'''
    return s
def emit(name,doc,imports,opn,f,call,res):
    items,l1,o=load(f)
    s=''.join('import %s\n'%i for i in imports)+'\n/-! # Conformance test: %s\n\nThe dataset items%s come from the independent program tools/ref/ref.c; the expected values are those of /repo. A lookup of any other\nindex fails. -/\n\nset_option autoImplicit false\n\nnamespace Verif.Test.%s\n\nopen Verif Go %s\n\n'%(doc,' and the L1 cache' if l1 else '',name,opn)
    s+=body(items,l1,0)
    s+='#guard match %s with\n  | .ok r => %s\n  | .error _ => false\n\nend Verif.Test.%s\n'%(call,res(o),name)
    open('/verif/lean/Verif/Test/%s.lean'%name,'w').write(s)
two=lambda o:'r.1 == hex "%s"\n      && r.2 == hex "%s"'%(o['mix'],o['digest'])
one=lambda o:'r == hex "%s"'%o['digest']
emit('OctopusHash','Octopus on the first vector of /repo/octopus/octopus_test.go:17-22',['Verif.Model.Generate','Verif.Model.Octopus','Verif.Test.Sponge'],'Verif.Octopus','o.txt','octopus keccakPrims 65 (hex "4d99d0b41c7eb0dd1a801c35aae2df28ae6b53bc7743f0818a34b6ec97f5b4ae") 151182848800 4294966528 lookup',one)
emit('KawpowHash','KAWPOW on the second vector of /repo/kawpow/kawpow_test.go:29-35',['Verif.Model.Generate','Verif.Model.Kawpow','Verif.Test.Sponge'],'Verif.Progpow','k.txt','kawpow (hex "63155f732f2bf556967f906155b510c917e48e99685ead76ea83f4eca03ab12b") 49 0x07073c07 1073739904 lookup l1',two)
emit('FiropowHash','FiroPoW on the first vector of /repo/firopow/firopow_test.go:18-24',['Verif.Model.Generate','Verif.Model.Kawpow','Verif.Test.Sponge'],'Verif.Progpow','f.txt','firopow (hex "2d794e900dcad779e658de9078d9a88eee87d75f7b09a8fdd270d3a8e76650c7") 1 0x85f22c9b3cd2f123 1610610304 lookup l1',two)
emit('EthashHash','Ethash on the first vector of /repo/ethash/ethash_test.go:18-24',['Verif.Model.Generate','Verif.Model.Hashimoto','Verif.Test.Sponge'],'Verif.Ethash','e.txt','hashimoto keccakPrims (hex "69e71ffd37268b6cf7096cdd917c2c175eaaee8eb7afed4b5cf8521b09024818") 0x2f6923f80426f157 3867147904 lookup',two)
