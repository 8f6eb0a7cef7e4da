import Verif.Model.InMem.Ethash
import Verif.Proof.InMem.Autolykos

/-! # Dataset items and Ethash with memory -/

set_option autoImplicit false

namespace Verif

open Go

namespace Crypto.InMem

theorem runs_fnvHash {h : Heap} {mix data : Slice .word} {xs ys : List U32} (hm : Held h mix xs) (hd : Held h data ys) (hne : data.arr ≠ mix.arr) :
    Writes (fnvHash mix data) h mix (Crypto.fnvHash xs ys) := by
  unfold fnvHash Crypto.fnvHash
  rw [show xs.length = mix.len from hm.len]
  refine runs_each 0 mix.len hm fun j h1 zs _ _ f1 k1 => ?_
  have hd1 : Held h1 data ys := hd.other f1 (Or.inr hne)
  refine Runs.val (runs_idx k1 j) fun m _ => ?_
  refine Runs.val (runs_idx hd1 j) fun d _ => ?_
  exact runs_upd k1 j _

theorem makes_keccak256 (P : Prims) {h : Heap} {s : Slice .byte} {xs : List Byte} (hs : Held h s xs) : Makes (keccak256 P s) h (P.keccak256 xs) := by
  unfold keccak256 Makes
  rw [Mem.bind_ok (contents_ok hs)]
  exact makes_fresh h .byte _

theorem makes_keccak512 (P : Prims) {h : Heap} {s : Slice .byte} {xs : List Byte} (hs : Held h s xs) : Makes (keccak512 P s) h (P.keccak512 xs) := by
  unfold keccak512 Makes
  rw [Mem.bind_ok (contents_ok hs)]
  exact makes_fresh h .byte _

theorem runs_keccak512Hasher (P : Prims) {h : Heap} {s r : Slice .byte} {xs ys : List Byte} (hs : Held h s xs) (hr : Held h r ys) :
    Writes (keccak512Hasher P s r) h s (Dag.keccak512At P xs 0 ys) := by
  intro b hb
  unfold Dag.keccak512At at hb
  by_cases hc : xs.length < 0 + 64
  · rw [if_pos hc] at hb; cases hb
  rw [if_neg hc] at hb
  obtain rfl := Except.ok.inj hb
  unfold keccak512Hasher
  rw [Mem.bind_ok (contents_ok hr), Mem.bind_ok (held_slc hs (Nat.zero_le _) (by omega)).1]
  have hl := P.keccak512_length ys
  obtain ⟨h', e, f, k⟩ := blit_sub (t := .byte) (P.keccak512 ys) 0 hs (by rw [hl]; omega) (s.cap - 0) (64 - 0)
  refine ⟨(), h', e, f, ?_⟩
  rw [hl] at k
  exact k

end Crypto.InMem

namespace Dag.InMem

open Crypto.InMem

theorem builds_generateDatasetItem (P : Prims) (parents : U32) {H : Heap} {cache : Slice .word} {cs : List U32} (hc : Held H cache cs) (index : U32) :
    Builds (generateDatasetItem P parents cache index) H (Dag.generateDatasetItem P parents cs index) := by
  unfold generateDatasetItem Dag.generateDatasetItem
  rw [show cs.length = cache.len from hc.len]
  refine (makes_make H .byte hashBytes).bind fun mix H1 F1 km nm => ?_
  replace hc := hc.keep F1
  have hcn : cache.arr < (H1.store .word).length := hc.arr
  refine Runs.val Runs.lift fun r _ => ?_
  refine Runs.val (runs_idx hc _) fun w _ => ?_
  refine (runs_put32 km .little (w ^^^ index)).bind fun ms H2 _ G km => ?_
  have F2 := F1.write G nm
  replace hc := hc.other G (Or.inl (by decide))
  have hseed : Writes _ H2 mix (Go.forRange 1 hashWords ms (seedStep cs index (BitVec.ofNat 32 (cache.len / hashWords)))) :=
    runs_each (f := fun i => do
      let r ← Mem.lift (umod index (BitVec.ofNat 32 (cache.len / hashWords)))
      let w ← Mem.idx cache (r * BitVec.ofNat 32 hashWords + BitVec.ofNat 32 i).toNat
      Mem.putU32 .little mix (i * 4) w) 1 hashWords km fun j h1 ys _ _ f1 k1 => by
        have hc1 := hc.other f1 (Or.inl (by decide))
        unfold seedStep
        refine Runs.val Runs.lift fun r _ => ?_
        exact Runs.val (runs_idx hc1 _) fun w _ => runs_putU32 k1 _ _ w
  refine hseed.bind fun ms H3 _ G km => ?_
  have F3 := F2.write G nm
  replace hc := hc.other G (Or.inl (by decide))
  refine (runs_keccak512Hasher P km km).bind fun ms H4 _ G km => ?_
  have F4 := F3.write G nm
  replace hc := hc.other G (Or.inl (by decide))
  refine (makes_make H4 .word hashWords).bind fun intMix H5 G ki ni => ?_
  have F5 := F4.trans G
  replace hne : cache.arr ≠ intMix.arr := hc.ne ni G
  replace hc := hc.keep G
  replace km := km.keep G
  replace ni : newer H .word intMix.arr := newer.mono F4 ni
  have hint : Writes _ H5 intMix (Go.forRange 0 hashWords (List.replicate hashWords 0) (intStep ms)) :=
    runs_each (f := fun i => do
      let tail ← Mem.slc mix (i * 4) mix.len
      let w ← Mem.getU32 .little tail
      Mem.upd intMix i w) 0 hashWords ki fun j h1 ys _ _ f1 k1 => by
        have km1 := km.other f1 (Or.inl (by decide))
        unfold intStep
        rw [show ms.length = mix.len from km.len]
        refine runs_slc_bind km1 _ _ fun r b _ _ hr => ?_
        exact Runs.val (runs_getU32 hr _) fun w _ => runs_upd k1 _ w
  refine hint.bind fun is H6 _ G ki => ?_
  have F6 := F5.write G ni
  replace hc := hc.other G (Or.inr hne)
  replace km := km.other G (Or.inl (by decide))
  have hpar : Writes _ H6 intMix (Go.forRange 0 parents.toNat is (parentStep cs index (BitVec.ofNat 32 (cache.len / hashWords)))) :=
    runs_each (f := fun i => do
      let m ← Mem.idx intMix (i % 16)
      let parent ← Mem.lift (umod (Crypto.fnv1 (index ^^^ BitVec.ofNat 32 i) m) (BitVec.ofNat 32 (cache.len / hashWords)))
      let data ← Mem.slc cache (parent * BitVec.ofNat 32 hashWords).toNat cache.len
      fnvHash intMix data) 0 parents.toNat ki fun j h1 ys _ _ f1 k1 => by
        have hc1 := hc.other f1 (Or.inr hne)
        unfold parentStep
        rw [show cs.length = cache.len from hc.len]
        refine Runs.val (runs_idx k1 _) fun m _ => ?_
        refine Runs.val Runs.lift fun parent _ => ?_
        refine runs_slc_bind hc1 _ _ fun r b hr' _ hr => ?_
        exact runs_fnvHash k1 hr (by rw [hr']; exact hne)
  refine hpar.bind fun is H7 _ G ki => ?_
  have F7 := F6.write G ni
  replace km := km.other G (Or.inl (by decide))
  rw [show intMix.len = is.length from ki.len.symm]
  have hfl : Writes _ H7 mix (Go.forRange 0 is.length ms (flattenStep is)) :=
    runs_each (f := fun i => do
      let v ← Mem.idx intMix i
      Mem.putU32 .little mix (i * 4) v) 0 is.length km fun j h1 ys _ _ f1 k1 => by
        have ki1 := ki.other f1 (Or.inl (by decide))
        unfold flattenStep
        exact Runs.val (runs_idx ki1 _) fun w _ => runs_putU32 k1 _ _ w
  refine hfl.bind fun ms H8 _ G km => ?_
  have F8 := F7.write G nm
  exact Writes.ret (runs_keccak512Hasher P km km) F8 nm

theorem builds_generateDatasetItemUint (P : Prims) (parents : U32) {H : Heap} {cache : Slice .word} {cs : List U32} (hc : Held H cache cs) (index size : U32) :
    Builds (generateDatasetItemUint P parents cache index size) H (Dag.generateDatasetItemUint P parents cs index size) := by
  unfold generateDatasetItemUint Dag.generateDatasetItemUint
  refine (makes_make H .word _).bind fun data H1 F1 kd nd => ?_
  have hne : cache.arr ≠ data.arr := hc.ne nd F1
  refine Writes.ret ?_ F1 nd
  refine runs_each 0 size.toNat kd fun n h1 ys _ _ f1 k1 => ?_
  have hc1 := (hc.keep F1).other f1 (Or.inr hne)
  unfold itemStep
  refine Runs.bind (builds_generateDatasetItem P parents hc1 _) fun item its h2 _ q => ?_
  obtain ⟨G, kit, _⟩ := q
  have k2 := k1.keep G
  refine Runs.post (runs_each 0 hashWords k2 fun i h3 zs _ _ f3 k3 => ?_) fun _ b h4 _ q => ⟨(G.none_only _).trans q.1, q.2⟩
  have kit3 := kit.other f3 (Or.inl (by decide))
  unfold itemWordStep
  rw [show its.length = item.len from kit.len]
  refine runs_slc_bind kit3 _ _ fun r b _ _ hr => ?_
  exact Runs.val (runs_getU32 hr _) fun w _ => runs_upd k3 _ w

end Dag.InMem

namespace Ethash.InMem

open Crypto.InMem

/-- a lookup function that behaves, in every heap that extends `H`, like one on lists -/
def Like (H : Heap) (L : Lookup) (l : Ethash.Lookup) : Prop := ∀ H', Frame H H' none → ∀ i, Builds (L i) H' (l i)

theorem Like.mono {H H' : Heap} {L : Lookup} {l : Ethash.Lookup} (hL : Like H L l) (F : Frame H H' none) : Like H' L l := fun _ G i => hL _ (F.trans G) i

theorem like_lookup512 (P : Prims) (parents : U32) {H : Heap} {cache : Slice .word} {cs : List U32} (hc : Held H cache cs) :
    Like H (Dag.InMem.lookup512 P parents cache) (Dag.lookup512 P parents cs) := fun _ F i =>
  Dag.InMem.builds_generateDatasetItemUint P parents (hc.keep F) i 1

theorem like_lookup2048 (P : Prims) (parents : U32) {H : Heap} {cache : Slice .word} {cs : List U32} (hc : Held H cache cs) :
    Like H (Dag.InMem.lookup2048 P parents cache) (Dag.lookup2048 P parents cs) := fun _ F i =>
  Dag.InMem.builds_generateDatasetItemUint P parents (hc.keep F) i 4

theorem runs_round {H h : Heap} {L : Lookup} {l : Ethash.Lookup} (hL : Like H L l) (F : Frame H h none) (rows seedHead : U32) {mix temp : Slice .word}
    {ms ts : List U32} (nm : newer H .word mix.arr) (nt : newer H .word temp.arr) (hne : temp.arr ≠ mix.arr) (km : Held h mix ms) (kt : Held h temp ts) (i : Nat) :
    Runs (round L rows seedHead mix temp i) h (hashimotoStep l rows seedHead i (ms, ts))
      fun _ b h' => Frame H h' none ∧ Held h' mix b.1 ∧ Held h' temp b.2 := by
  unfold round hashimotoStep
  dsimp only
  rw [show ms.length = mix.len from km.len]
  refine Runs.val (runs_idx km _) fun m _ => ?_
  refine Runs.val Runs.lift fun parent _ => ?_
  have hlk : Writes _ h temp (Go.forRange 0 (mixBytes / hashBytes) ts (lookupStep l parent)) :=
    runs_each (f := fun j => do
      let item ← L (2 * parent + BitVec.ofNat 32 j)
      Mem.copyAt temp (j * hashWords) item) 0 (mixBytes / hashBytes) kt fun j h1 ys _ _ f1 k1 => by
        unfold lookupStep
        refine Runs.bind (hL h1 (F.write f1 nt) _) fun item its h2 _ q => ?_
        obtain ⟨G, kit, _⟩ := q
        exact Runs.post (runs_copyAt (k1.keep G) kit _) fun _ b h4 _ q => ⟨(G.none_only _).trans q.1, q.2⟩
  refine hlk.bind fun ts h1 _ G kt => ?_
  have F1 := F.write G nt
  replace km := km.other G (Or.inr hne.symm)
  intro b hb
  cases hg : Crypto.fnvHash ms ts with
  | error e => rw [hg] at hb; cases hb
  | ok ms' =>
    rw [hg] at hb
    obtain rfl := Except.ok.inj hb
    obtain ⟨u, h2, e, G2, km⟩ := runs_fnvHash km kt hne ms' hg
    exact ⟨u, h2, e, F1.write G2 nm, km, kt.other G2 (Or.inr hne)⟩

theorem runs_hashimoto (P : Prims) {H : Heap} {hash : Slice .byte} {xs : List Byte} (hh : Held H hash xs) {L : Lookup} {l : Ethash.Lookup} (hL : Like H L l)
    (nonce size : U64) :
    Runs (hashimoto P hash nonce size L) H (Ethash.hashimoto P xs nonce size l)
      fun a b h' => Frame H h' none ∧ Held h' a.1 b.1 ∧ newer H .byte a.1.arr ∧ Held h' a.2 b.2 ∧ newer H .byte a.2.arr ∧ a.1.arr ≠ a.2.arr := by
  unfold hashimoto Ethash.hashimoto
  refine (makes_make H .byte 40).bind fun seed H1 F1 ks ns => ?_
  refine (runs_copy ks (hh.keep F1)).bind fun ss H2 _ G ks => ?_
  have F2 := F1.write G ns
  refine (runs_putU64 ks .little 32 nonce).bind fun ss H3 _ G ks => ?_
  have F3 := F2.write G ns
  refine (makes_keccak512 P ks).bind fun seed H4 G ks ns => ?_
  have F4 := F3.trans G
  replace ns := newer.mono F3 ns
  refine Runs.val (runs_getU32 ks .little) fun seedHead _ => ?_
  refine (makes_make H4 .word (mixBytes / 4)).bind fun mix H5 G km nm => ?_
  have F5 := F4.trans G
  have G5 := G
  have nm4 : newer H4 .word mix.arr := nm
  replace nm := newer.mono F4 nm
  have ks4 := ks
  replace ks := ks.keep G
  have hmix : Writes _ H5 mix (Go.forRange 0 (mixBytes / 4) (List.replicate (mixBytes / 4) 0) (mixStep (P.keccak512 ss))) :=
    runs_each (f := fun i => do
      let tail ← Mem.slc seed (i % 16 * 4) seed.len
      let w ← Mem.getU32 .little tail
      Mem.upd mix i w) 0 (mixBytes / 4) km fun j h1 ys _ _ f1 k1 => by
        have ks1 := ks.other f1 (Or.inl (by decide))
        unfold mixStep
        rw [show (P.keccak512 ss).length = seed.len from ks.len]
        refine runs_slc_bind ks1 _ _ fun r b _ _ hr => ?_
        exact Runs.val (runs_getU32 hr _) fun w _ => runs_upd k1 _ w
  refine hmix.bind fun ms H6 _ G km => ?_
  have F6 := F5.write G nm
  have G6 := G5.write G nm4
  rw [show ms.length = mix.len from km.len]
  refine (makes_make H6 .word _).bind fun temp H7 G kt nt => ?_
  have hne : temp.arr ≠ mix.arr := (km.ne nt G).symm
  have G7 := G6.trans G
  replace km := km.keep G
  replace nt : newer H4 .word temp.arr := newer.mono G6 nt
  have hrounds : Runs (Mem.each 0 hashimotoRounds (round L ((size / BitVec.ofNat 64 mixBytes).setWidth 32) seedHead mix temp)) H7
      (Go.forRange 0 hashimotoRounds (ms, List.replicate mix.len 0) (hashimotoStep l ((size / BitVec.ofNat 64 mixBytes).setWidth 32) seedHead))
      fun _ b h' => Frame H4 h' none ∧ Held h' mix b.1 ∧ Held h' temp b.2 := by
    refine runs_forRange (fun (_ : Unit) (b : List U32 × List U32) h' => Frame H4 h' none ∧ Held h' mix b.1 ∧ Held h' temp b.2)
      0 _ () _ H7 ⟨G7, km, kt⟩ ?_
    rintro j _ ⟨ms, ts⟩ hj _ _ ⟨Fj, kmj, ktj⟩
    exact runs_round (hL.mono F4) Fj _ _ nm4 nt hne kmj ktj j
  refine Runs.bind hrounds fun _ st H8 _ q => ?_
  obtain ⟨G8, km, kt⟩ := q
  have F8 := F4.trans G8
  replace ks := ks4.keep G8
  rw [show st.1.length = mix.len from km.len]
  have hcomp : Writes _ H8 mix (Go.forRange 0 (mix.len / 4) st.1 compressStep) :=
    runs_each (f := fun k => do
      let i := 4 * k
      let a ← Mem.idx mix i
      let b ← Mem.idx mix (i + 1)
      let c ← Mem.idx mix (i + 2)
      let d ← Mem.idx mix (i + 3)
      Mem.upd mix (i / 4) (Crypto.fnv1 (Crypto.fnv1 (Crypto.fnv1 a b) c) d)) 0 (mix.len / 4) km fun j h1 ys _ _ f1 k1 => by
        unfold compressStep
        refine Runs.val (runs_idx k1 _) fun a _ => ?_
        refine Runs.val (runs_idx k1 _) fun b _ => ?_
        refine Runs.val (runs_idx k1 _) fun c _ => ?_
        refine Runs.val (runs_idx k1 _) fun d _ => ?_
        exact runs_upd k1 _ _
  refine hcomp.bind fun ms H9 _ G km => ?_
  have F9 := F8.write G nm
  replace ks := ks.other G (Or.inl (by decide))
  rw [show ms.length = mix.len from km.len]
  refine runs_slc_bind km _ _ fun mix ms _ _ km => ?_
  refine (makes_make H9 .byte 32).bind fun digest H10 G kd nd => ?_
  have F10 := F9.trans G
  have hne2 : seed.arr ≠ digest.arr := ks.ne nd G
  replace km := km.keep G
  replace ks := ks.keep G
  replace nd := newer.mono F9 nd
  rw [show mix.len = ms.length from km.len.symm]
  have hdig : Writes _ H10 digest (Go.forRange 0 ms.length (List.replicate 32 0) (digestStep ms)) :=
    runs_each (f := fun i => do
      let v ← Mem.idx mix i
      Mem.putU32 .little digest (i * 4) v) 0 ms.length kd fun j h1 ys _ _ f1 k1 => by
        have km1 := km.other f1 (Or.inl (by decide))
        unfold digestStep
        exact Runs.val (runs_idx km1 _) fun w _ => runs_putU32 k1 _ _ w
  refine hdig.bind fun ds H11 _ G kd => ?_
  have F11 := F10.write G nd
  replace ks := ks.other G (Or.inr hne2)
  obtain ⟨long, H12, e, G, kl, nl⟩ := append_ok ks kd
  refine Runs.heap e ?_
  have F12 := F11.write G ns
  replace kd := kd.other G (Or.inr hne2.symm)
  refine (makes_keccak256 P kl).bind fun res H13 G kr nr => ?_
  refine Runs.pure ⟨F12.trans G, kd.keep G, nd, kr, newer.mono F12 nr, kd.ne nr G⟩

end Ethash.InMem

end Verif
