import Verif.Model.InMem.Small
import Verif.Proof.InMem.Ethash

/-! # HeavyHash, Eaglesong and Cuckoo Cycle with memory -/

set_option autoImplicit false

namespace Verif

open Go

namespace Go

/-- `PutUint64(s[lo:hi], v)` -/
theorem runs_put64_sub {h : Heap} {s : Slice .byte} {xs : List Byte} (hs : Held h s xs) (o : ByteOrder) {lo hi : Nat} (h1 : lo + 8 ≤ hi) (h2 : hi ≤ xs.length) (v : U64) :
    Writes (Mem.slc s lo hi >>= fun d => Mem.put64 o d v) h s (Go.putU64 o xs lo v) := by
  intro b hb
  unfold Go.putU64 at hb
  rw [if_neg (by omega), if_neg (by omega)] at hb
  obtain rfl := Except.ok.inj hb
  obtain ⟨h', e, f, k⟩ := blit_sub (t := .byte) (bytesOf o 8 v) lo hs (by rw [length_bytesOf]; omega) (s.cap - lo) (hi - lo)
  refine ⟨(), h', ?_, f, ?_⟩
  · rw [Mem.bind_ok (held_slc hs (by omega) h2).1]
    unfold Mem.put64
    rw [if_neg (by show ¬ hi - lo < 8; omega)]
    exact e
  · rw [length_bytesOf] at k
    exact k

/-- `copy(s[:n], src)` -/
theorem copy_sub {h : Heap} {s r : Slice .byte} {xs ys : List Byte} (hs : Held h s xs) (hr : Held h r ys) {n : Nat} (h2 : n ≤ xs.length) :
    ∃ h', (Mem.slc s 0 n >>= fun d => Mem.copy d r) h = .ok ((), h') ∧ Frame h h' (only s) ∧ Held h' s (ys.take n ++ xs.drop (ys.take n).length) := by
  obtain ⟨h', e, f, k⟩ := blit_sub (t := .byte) (ys.take n) 0 hs (by rw [List.length_take]; omega) (s.cap - 0) (n - 0)
  refine ⟨h', ?_, f, ?_⟩
  · rw [Mem.bind_ok (held_slc hs (Nat.zero_le _) h2).1]
    unfold Mem.copy
    rw [Mem.bind_ok (contents_ok hr)]
    exact e
  · rw [List.take_zero, List.nil_append, Nat.zero_add] at k
    exact k

/-- a result that the code leaves in memory -/
theorem Runs.map {α β δ : Type} {m : Mem α} {h : Heap} {g : Go β} {l : β → δ} {Q : α → β → Heap → Prop} {R : α → δ → Heap → Prop}
    (hm : Runs m h g Q) (hq : ∀ a b h', g = .ok b → Q a b h' → R a (l b) h') : Runs m h (g >>= fun b => Pure.pure (l b)) R := by
  intro d hd
  cases hg : g with
  | error e => rw [hg] at hd; cases hd
  | ok b =>
    rw [hg] at hd
    obtain rfl := Except.ok.inj hd
    obtain ⟨a, h', e, q⟩ := hm b hg
    exact ⟨a, h', e, hq a b h' hg q⟩

theorem length_putU64 {o : ByteOrder} {b c : List Byte} {off : Nat} {v : U64} (h : Go.putU64 o b off v = .ok c) : c.length = b.length := by
  unfold Go.putU64 at h
  by_cases h1 : b.length < off
  · rw [if_pos h1] at h; cases h
  rw [if_neg h1] at h
  by_cases h2 : b.length < off + 8
  · rw [if_pos h2] at h; cases h
  rw [if_neg h2] at h
  obtain rfl := Except.ok.inj h
  simp [length_bytesOf]
  omega

end Go

namespace Heavy.InMem

theorem makes_cshake256 (P : Prims) {h : Heap} {s : Slice .byte} {xs : List Byte} (hs : Held h s xs) (personal : List Byte) (size : Nat) :
    Makes (cshake256 P s personal size) h (Heavy.cshake256 P xs personal size) := by
  unfold cshake256 Makes
  rw [Mem.bind_ok (contents_ok hs)]
  exact makes_fresh h .byte _

theorem runs_vector {h : Heap} {s : Slice .byte} {xs : List Byte} (hs : Held h s xs) (v : List U16) (n : Nat) :
    Runs (Mem.forRange 0 n v (vectorStep s)) h (Go.forRange 0 n v (Heavy.vectorStep xs)) fun a b h' => a = b ∧ h' = h := by
  refine runs_forRange (fun x y h' => x = y ∧ h' = h) 0 _ _ _ h ⟨rfl, rfl⟩ ?_
  rintro i x _ _ _ _ ⟨rfl, rfl⟩
  unfold vectorStep Heavy.vectorStep
  refine Runs.val (runs_idx hs _) fun _ _ => ?_
  exact Runs.val Runs.lift fun _ _ => Runs.lift

theorem runs_digest {h : Heap} {header digest : Slice .byte} {xs ys : List Byte} (kh : Held h header xs) (kd : Held h digest ys) (hne : header.arr ≠ digest.arr)
    (p : List U16) (n : Nat) :
    Writes (Mem.each 0 n fun i => do
      let b ← Mem.idx header i
      let hi ← Mem.lift (Go.idx p (i * 2))
      let lo ← Mem.lift (Go.idx p (i * 2 + 1))
      Mem.upd digest i ((b : Byte) ^^^ ((hi <<< 4).setWidth 8 ||| lo.setWidth 8))) h digest (Go.forRange 0 n ys (digestStep xs p)) := by
  refine runs_each 0 n kd fun i h1 zs _ _ f1 k1 => ?_
  unfold digestStep
  refine Runs.val (runs_idx (kh.other f1 (Or.inr hne)) _) fun _ _ => ?_
  refine Runs.val Runs.lift fun _ _ => ?_
  refine Runs.val Runs.lift fun _ _ => ?_
  exact runs_upd k1 _ _

theorem runs_reverse {h : Heap} {digest : Slice .byte} {ys : List Byte} (kd : Held h digest ys) (n : Nat) :
    Writes (Mem.each 0 n fun i => do
      let x ← Mem.idx digest i
      let y ← Mem.idx digest (digest.len - 1 - i)
      Mem.upd digest i y
      Mem.upd digest (digest.len - 1 - i) x) h digest (Go.forRange 0 n ys swapStep) := by
  refine runs_each 0 n kd fun i h1 zs _ _ f1 k1 => ?_
  unfold swapStep
  rw [show zs.length = digest.len from k1.len]
  refine Runs.val (runs_idx k1 _) fun _ _ => ?_
  refine Runs.val (runs_idx k1 _) fun _ _ => ?_
  refine (runs_upd k1 _ _).bind fun b h2 _ G k2 => ?_
  rw [show b.length = digest.len from k2.len]
  exact Runs.post (runs_upd k2 _ _) fun _ _ _ _ q => ⟨G.trans q.1, q.2⟩

theorem builds_heavyHash {F : Type} (N : Num F) (P : Prims) (fuel : Nat) {H : Heap} {hash : Slice .byte} {xs : List Byte} (kh : Held H hash xs) (timestamp nonce : U64) :
    Builds (heavyHash N P fuel hash timestamp nonce) H (Heavy.heavyHash N P fuel xs timestamp nonce) := by
  unfold heavyHash Heavy.heavyHash
  refine runs_slc_bind kh _ _ fun r _ _ _ kr => ?_
  refine Runs.val (runs_getU64 kr .little) fun s0 _ => ?_
  refine runs_slc_bind kh _ _ fun r _ _ _ kr => ?_
  refine Runs.val (runs_getU64 kr .little) fun s1 _ => ?_
  refine runs_slc_bind kh _ _ fun r _ _ _ kr => ?_
  refine Runs.val (runs_getU64 kr .little) fun s2 _ => ?_
  refine runs_slc_bind kh _ _ fun r _ _ _ kr => ?_
  refine Runs.val (runs_getU64 kr .little) fun s3 _ => ?_
  refine Runs.val Runs.lift fun mat _ => ?_
  refine (makes_make H .byte (32 + 8 + 32 + 8)).bind fun header H1 F1 ka na => ?_
  have kh1 := kh.keep F1
  obtain ⟨H2, e2, G2, ka⟩ := copy_sub (n := 32) ka kh1 (by rw [List.length_replicate]; omega)
  refine Runs.heap e2 ?_
  have F2 := F1.write G2 na
  dsimp only
  have hl : (xs.take 32 ++ (List.replicate (32 + 8 + 32 + 8) (0 : Byte)).drop (xs.take 32).length).length = 80 := by
    rw [List.length_append, List.length_drop, List.length_replicate, List.length_take]
    omega
  refine (runs_put64_sub ka .little (lo := 32) (hi := 40) (by omega) (Nat.le_trans (by omega : 40 ≤ 80) (Nat.le_of_eq hl.symm)) timestamp).bind fun b H3 e3 G3 ka => ?_
  have hl := (length_putU64 e3).trans hl
  have F3 := F2.write G3 na
  refine (runs_put64_sub ka .little (lo := 72) (hi := 80) (by omega) (Nat.le_of_eq hl.symm) nonce).bind fun b H4 e4 G4 ka => ?_
  have F4 := F3.write G4 na
  refine (makes_cshake256 P ka _ _).bind fun header' H5 F5 kb nb => ?_
  have F5 := F4.trans F5
  refine Runs.val (runs_vector kb _ _) fun v _ => ?_
  refine Runs.val Runs.lift fun p _ => ?_
  refine (makes_make H5 .byte 32).bind fun digest H6 F6 kd nd => ?_
  have hne : header'.arr ≠ digest.arr := kb.ne nd F6
  have kb6 := kb.keep F6
  rw [show digest.len = 32 by rw [← kd.len, List.length_replicate]]
  refine (runs_digest kb6 kd hne p 32).bind fun ds H7 _ G7 kd => ?_
  have F7 := (F5.trans F6).write G7 (newer.mono F5 nd)
  refine (makes_cshake256 P kd _ _).bind fun out H8 F8 ko no => ?_
  rw [show (Heavy.cshake256 P ds ("HeavyHash".toList.map fun ch => BitVec.ofNat 8 ch.toNat) 32).length = out.len from ko.len]
  exact (runs_reverse ko _).ret (F7.trans F8) (newer.mono F7 no)

end Heavy.InMem

namespace Eaglesong.InMem

theorem runs_temp {h : Heap} {state temp : Slice .word} {xs ys : List U32} (ks : Held h state xs) (kt : Held h temp ys) (hne : state.arr ≠ temp.arr) :
    Writes (Mem.each 0 16 fun j => do
      let t ← Mem.idx temp j
      let t ← Mem.forRange 0 16 (t : U32) fun k acc => do
        let b ← Mem.lift (Go.idx bitMatrix (k * 16 + j))
        let x ← Mem.idx state k
        pure (acc ^^^ (b * x))
      Mem.upd temp j t) h temp (Go.forRange 0 16 ys (tempStep xs)) := by
  refine runs_each 0 16 kt fun j h1 zs _ _ f1 k1 => ?_
  have ks1 := ks.other f1 (Or.inr hne)
  unfold tempStep
  refine Runs.val (runs_idx k1 _) fun t _ => ?_
  refine Runs.val ?_ fun t _ => runs_upd k1 _ _
  refine runs_forRange (fun x y h' => x = y ∧ h' = h1) 0 _ _ _ h1 ⟨rfl, rfl⟩ ?_
  rintro k x _ _ _ _ ⟨rfl, rfl⟩
  unfold matStep
  refine Runs.val Runs.lift fun b _ => ?_
  exact Runs.last (runs_idx ks1 _) fun _ _ _ _ q => ⟨by rw [q.1], q.2⟩

theorem runs_roundStep {h : Heap} {state : Slice .word} {xs : List U32} (ks : Held h state xs) (i : Nat) :
    Runs (roundStep state i) h (Eaglesong.roundStep i xs) fun _ b h' => Frame h h' (only state) ∧ Held h' state b := by
  unfold roundStep Eaglesong.roundStep
  refine (makes_make h .word 16).bind fun temp h1 F1 kt nt => ?_
  have hne : state.arr ≠ temp.arr := ks.ne nt F1
  refine (runs_temp (ks.keep F1) kt hne).bind fun ts h2 _ G2 kt => ?_
  have F2 := F1.write G2 nt
  have ks2 := ks.keep F2
  have hcopy : Writes (Mem.each 0 16 fun j => do
      let t ← Mem.idx temp j
      Mem.upd state j t) h2 state (Go.forRange 0 16 xs (copyStep ts)) := by
    refine runs_each 0 16 ks2 fun j h3 zs _ _ f3 k3 => ?_
    unfold copyStep
    exact Runs.val (runs_idx (kt.other f3 (Or.inr hne.symm)) _) fun t _ => runs_upd k3 _ _
  refine hcopy.bind fun xs h3 _ G3 k3 => ?_
  have W3 := (F2.none_only (only state)).trans G3
  have hcirc : Writes (Mem.each 0 16 fun j => do
      let value ← Mem.idx state j
      let value : U32 := value
      let c1 ← Mem.lift (Go.idx coefficients (3 * j + 1))
      let c2 ← Mem.lift (Go.idx coefficients (3 * j + 2))
      let x ← Mem.idx state j
      let x : U32 := x
      let x := x ^^^ (value <<< c1)
      let x := x ^^^ (value >>> (32 - c1))
      let x := x ^^^ (value <<< c2)
      let x := x ^^^ (value >>> (32 - c2))
      Mem.upd state j x) h3 state (Go.forRange 0 16 xs circStep) := by
    refine runs_each 0 16 k3 fun j h4 zs _ _ f4 k4 => ?_
    unfold circStep
    refine Runs.val (runs_idx k4 _) fun value _ => ?_
    refine Runs.val Runs.lift fun c1 _ => ?_
    refine Runs.val Runs.lift fun c2 _ => ?_
    exact Runs.val (runs_idx k4 _) fun x _ => runs_upd k4 _ _
  refine hcirc.bind fun xs h4 _ G4 k4 => ?_
  have W4 := W3.trans G4
  have hinj : Writes (Mem.each 0 16 fun j => do
      let x ← Mem.idx state j
      let c ← Mem.lift (Go.idx injectionConstants (i * 16 + j))
      Mem.upd state j ((x : U32) ^^^ c)) h4 state (Go.forRange 0 16 xs (injectStep i)) := by
    refine runs_each 0 16 k4 fun j h5 zs _ _ f5 k5 => ?_
    unfold injectStep
    refine Runs.val (runs_idx k5 _) fun x _ => ?_
    exact Runs.val Runs.lift fun c _ => runs_upd k5 _ _
  refine hinj.bind fun xs h5 _ G5 k5 => ?_
  have W5 := W4.trans G5
  refine Runs.post (runs_each 0 8 k5 fun q h6 zs _ _ f6 k6 => ?_) fun _ _ _ _ q => ⟨W5.trans q.1, q.2⟩
  unfold araStep
  refine Runs.val (runs_idx k6 _) fun a _ => ?_
  refine Runs.val (runs_idx k6 _) fun b _ => ?_
  refine (runs_upd k6 _ _).bind fun _ h7 _ G7 k7 => ?_
  refine Runs.val (runs_idx k7 _) fun a _ => ?_
  refine (runs_upd k7 _ _).bind fun _ h8 _ G8 k8 => ?_
  refine Runs.val (runs_idx k8 _) fun b _ => ?_
  refine (runs_upd k8 _ _).bind fun _ h9 _ G9 k9 => ?_
  refine Runs.val (runs_idx k9 _) fun a _ => ?_
  refine Runs.val (runs_idx k9 _) fun b _ => ?_
  exact Runs.post (runs_upd k9 _ _) fun _ _ _ _ q => ⟨(G7.trans G8).trans (G9.trans q.1), q.2⟩

theorem runs_permute {h : Heap} {state : Slice .word} {xs : List U32} (ks : Held h state xs) (rounds : Nat) :
    Writes (permute rounds state) h state (Eaglesong.permute rounds xs) := by
  unfold permute Eaglesong.permute
  exact runs_each 0 rounds ks fun i _ _ _ _ _ k1 => runs_roundStep k1 i

theorem runs_blockStep {h : Heap} {state : Slice .word} {xs : List U32} {input : Slice .byte} {bs : List Byte} (ks : Held h state xs) (ki : Held h input bs)
    (rounds rate : Nat) (delim : Byte) (i : Nat) :
    Writes (blockStep rounds rate delim input state i) h state (Eaglesong.blockStep rounds rate delim bs i xs) := by
  unfold blockStep Eaglesong.blockStep
  have habs : Writes (Mem.each 0 (rate / 32) fun j => do
      let integer ← Mem.forRange 0 4 (0 : U32) (byteStep input delim (i * rate / 8 + j * 4))
      let x ← Mem.idx state j
      Mem.upd state j (x ^^^ integer)) h state (Go.forRange 0 (rate / 32) xs (absorbStep rate delim bs i)) := by
    refine runs_each 0 _ ks fun j h1 zs _ _ f1 k1 => ?_
    have ki1 := ki.other f1 (Or.inl (by decide))
    unfold absorbStep
    refine Runs.val ?_ fun integer _ => ?_
    · refine runs_forRange (fun x y h' => x = y ∧ h' = h1) 0 _ _ _ h1 ⟨rfl, rfl⟩ ?_
      rintro k x _ _ _ _ ⟨rfl, rfl⟩
      unfold byteStep Eaglesong.byteStep
      rw [show bs.length = input.len from ki.len]
      by_cases hc : i * rate / 8 + j * 4 + k < input.len
      · rw [if_pos hc, if_pos hc]
        exact Runs.last (runs_idx ki1 _) fun _ _ _ _ q => ⟨by rw [q.1], q.2⟩
      · rw [if_neg hc, if_neg hc]
        by_cases hd : i * rate / 8 + j * 4 + k = input.len
        · rw [if_pos hd, if_pos hd]
          exact Runs.pure ⟨rfl, rfl⟩
        · rw [if_neg hd, if_neg hd]
          exact Runs.pure ⟨rfl, rfl⟩
    · exact Runs.val (runs_idx k1 _) fun x _ => runs_upd k1 _ _
  refine habs.bind fun xs h1 _ G1 k1 => ?_
  exact Runs.post (runs_permute k1 rounds) fun _ _ _ _ q => ⟨G1.trans q.1, q.2⟩

/-- the two slices written while squeezing -/
abbrev both (output : Slice .byte) (state : Slice .word) : Ty → Nat → Prop := fun t i => only output t i ∨ only state t i

theorem runs_squeezeStep {h : Heap} {state : Slice .word} {output : Slice .byte} {s : List Byte × List U32} (ko : Held h output s.1) (ks : Held h state s.2)
    (rounds rate i : Nat) :
    Runs (squeezeStep rounds rate output state i) h (Eaglesong.squeezeStep rounds rate i s)
      fun _ b h' => Frame h h' (both output state) ∧ Held h' output b.1 ∧ Held h' state b.2 := by
  unfold squeezeStep Eaglesong.squeezeStep
  have hout : Writes (Mem.each 0 (rate / 32) fun j => do
      let x ← Mem.idx state j
      Mem.each 0 4 fun k => Mem.upd output (i * rate / 8 + j * 4 + k) (BitVec.setWidth 8 (((x : U32) >>> (8 * k)) &&& 0xff))) h output
      (Go.forRange 0 (rate / 32) s.1 (outWordStep rate s.2 i)) := by
    refine runs_each 0 _ ko fun j h1 zs _ _ f1 k1 => ?_
    unfold outWordStep
    refine Runs.val (runs_idx (ks.other f1 (Or.inl (by decide))) _) fun x _ => ?_
    refine runs_each 0 4 k1 fun k h2 zs _ _ f2 k2 => ?_
    unfold outByteStep
    exact runs_upd k2 _ _
  refine hout.bind fun os h1 _ G1 k1 => ?_
  have ks1 := ks.other G1 (Or.inl (by decide))
  exact Runs.map (runs_permute ks1 rounds) fun _ b h' _ q =>
    ⟨(G1.mono fun _ _ => Or.inl).trans (q.1.mono fun _ _ => Or.inr), k1.other q.1 (Or.inl (by decide)), q.2⟩

theorem builds_eaglesong (rounds capacity rate : Int) (delim : Byte) {H : Heap} {input : Slice .byte} {bs : List Byte} (ki : Held H input bs) :
    Builds (eaglesong rounds capacity rate delim input) H (Eaglesong.eaglesong rounds capacity rate delim bs) := by
  unfold eaglesong Eaglesong.eaglesong
  refine (makes_make H .word 16).bind fun state H1 F1 ks ns => ?_
  dsimp only
  by_cases hr : rate = 0
  · rw [if_pos hr, if_pos hr]
    intro b hb
    cases hb
  rw [if_neg hr, if_neg hr, show bs.length = input.len from ki.len]
  have habs : Writes (Mem.each 0 ((wrap (((input.len : Int) + 1) * 8 + rate - 1)).tdiv rate).toNat (blockStep rounds.toNat rate.toNat delim input state)) H1 state
      (Go.forRange 0 ((wrap (((input.len : Int) + 1) * 8 + rate - 1)).tdiv rate).toNat (List.replicate 16 (0 : U32)) (Eaglesong.blockStep rounds.toNat rate.toNat delim bs)) := by
    refine runs_each 0 _ ks fun i h1 zs _ _ f1 k1 => ?_
    exact runs_blockStep k1 ((ki.keep F1).other f1 (Or.inl (by decide))) _ _ _ _
  refine habs.bind fun xs H2 _ G2 ks => ?_
  have F2 := F1.write G2 ns
  by_cases hc : capacity < 0
  · rw [if_pos hc, if_pos hc]
    intro b hb
    cases hb
  rw [if_neg hc, if_neg hc]
  obtain ⟨output, H3, e3, F3, ko, no⟩ := makes_make H2 .byte capacity.toNat
  refine Runs.heap e3 ?_
  by_cases hz : rate.tdiv 8 = 0
  · rw [if_pos hz, if_pos hz]
    intro b hb
    cases hb
  rw [if_neg hz, if_neg hz]
  have ks3 := ks.keep F3
  have hsq : Runs (Mem.each 0 (capacity.tdiv (rate.tdiv 8)).toNat (squeezeStep rounds.toNat rate.toNat output state)) H3
      (Go.forRange 0 (capacity.tdiv (rate.tdiv 8)).toNat (List.replicate capacity.toNat (0 : Byte), xs) (Eaglesong.squeezeStep rounds.toNat rate.toNat))
      fun _ b h' => Frame H3 h' (both output state) ∧ Held h' output b.1 ∧ Held h' state b.2 := by
    unfold Mem.each
    refine runs_forRange (fun _ (b : List Byte × List U32) h' => Frame H3 h' (both output state) ∧ Held h' output b.1 ∧ Held h' state b.2) 0 _ _
      (List.replicate capacity.toNat (0 : Byte), xs) H3 ⟨Frame.refl _ _, ko, ks3⟩ ?_
    rintro i _ b h _ _ ⟨F, k1, k2⟩
    exact Runs.post (runs_squeezeStep k1 k2 _ _ i) fun _ _ _ _ q => ⟨F.trans q.1, q.2⟩
  refine Runs.last (k := fun _ => output) hsq fun _ b h' _ q => ⟨?_, q.2.1, newer.mono F2 no⟩
  refine (F2.trans F3).own q.1 ?_
  rintro t i (⟨rfl, rfl⟩ | ⟨rfl, rfl⟩)
  · exact newer.mono F2 no
  · exact ns

end Eaglesong.InMem

namespace Cuckoo.InMem

open Siphash (Keys)

theorem runs_checkEdge (c : Client) {h : Heap} {edges : Slice .dword} {es : List U64} (ke : Held h edges es) (n : Nat) :
    Runs (checkEdge c edges n) h (Cuckoo.checkEdge c es n) fun a b h' => a = b ∧ h' = h := by
  unfold checkEdge Cuckoo.checkEdge
  refine Runs.val (runs_idx ke n) fun e _ => ?_
  by_cases h1 : e > c.edgeMask
  · rw [if_pos h1, if_pos h1]
    exact Runs.pure ⟨rfl, rfl⟩
  rw [if_neg h1, if_neg h1]
  rw [if_neg (by omega), if_neg (by omega)]
  exact Runs.pure ⟨rfl, rfl⟩

/-- what the endpoint loop has written -/
def Filled (H : Heap) (uvs : Slice .dword) (a : U64 × U64) (b : Ends) (h : Heap) : Prop :=
  a = (b.xor0, b.xor1) ∧ Frame H h (only uvs) ∧ Held h uvs b.uvs

/-- the endpoint loop ended with an error -/
def Failed (H : Heap) (uvs : Slice .dword) (a b : Err) (h : Heap) : Prop := a = b ∧ Frame H h (only uvs)

theorem runs_cuckooBody (c : Client) (keys : Keys) {H : Heap} {edges uvs : Slice .dword} {es : List U64} (ke : Held H edges es) (hne : edges.arr ≠ uvs.arr)
    (n : Nat) (a : U64 × U64) (b : Ends) (h : Heap) (hf : Filled H uvs a b h) :
    Runs (cuckooBody c keys edges uvs n a) h (Cuckoo.cuckooBody c keys es n b) (Related (Filled H uvs) (Failed H uvs)) := by
  obtain ⟨rfl, F, k⟩ := hf
  have ke1 := ke.other F (Or.inr hne)
  unfold cuckooBody Cuckoo.cuckooBody
  refine Runs.val (runs_checkEdge c ke1 n) fun o _ => ?_
  cases o with
  | some err => exact Runs.pure ⟨rfl, F⟩
  | none =>
    refine Runs.val (runs_idx ke1 n) fun e _ => ?_
    refine Runs.val Runs.lift fun u _ => ?_
    refine (runs_upd k _ _).bind fun us h1 _ G1 k1 => ?_
    refine Runs.val (runs_idx k1 _) fun x _ => ?_
    refine Runs.val Runs.lift fun v _ => ?_
    refine (runs_upd k1 _ _).bind fun us h2 _ G2 k2 => ?_
    refine Runs.val (runs_idx k2 _) fun x _ => ?_
    exact Runs.pure ⟨rfl, (F.trans G1).trans G2, k2⟩

theorem runs_cuckarooBody (c : Client) (keys : Keys) {H : Heap} {edges uvs : Slice .dword} {es : List U64} (ke : Held H edges es) (hne : edges.arr ≠ uvs.arr)
    (n : Nat) (a : U64 × U64) (b : Ends) (h : Heap) (hf : Filled H uvs a b h) :
    Runs (cuckarooBody c keys edges uvs n a) h (Cuckoo.cuckarooBody c keys es n b) (Related (Filled H uvs) (Failed H uvs)) := by
  obtain ⟨rfl, F, k⟩ := hf
  have ke1 := ke.other F (Or.inr hne)
  unfold cuckarooBody Cuckoo.cuckarooBody
  refine Runs.val (runs_checkEdge c ke1 n) fun o _ => ?_
  cases o with
  | some err => exact Runs.pure ⟨rfl, F⟩
  | none =>
    refine Runs.val (runs_idx ke1 n) fun e _ => ?_
    refine Runs.val Runs.lift fun u _ => ?_
    refine (runs_upd k _ _).bind fun us h1 _ G1 k1 => ?_
    refine Runs.val (runs_idx k1 _) fun x _ => ?_
    refine (runs_upd k1 _ _).bind fun us h2 _ G2 k2 => ?_
    refine Runs.val (runs_idx k2 _) fun x _ => ?_
    exact Runs.pure ⟨rfl, (F.trans G1).trans G2, k2⟩

/-- a loop that only reads -/
theorem Same.related {σ ρ : Type} {h : Heap} {a b : Step σ ρ} {h' : Heap} (e : a = b ∧ h' = h) :
    Related (fun x y h' => x = y ∧ h' = h) (fun x y h' => x = y ∧ h' = h) a b h' := by
  obtain ⟨rfl, rfl⟩ := e
  cases a <;> exact ⟨rfl, rfl⟩

theorem runs_innerStep {h : Heap} {uvs : Slice .dword} {us : List U64} (ku : Held h uvs us) (L i : Nat) (s : Nat × Nat) :
    Runs (innerStep uvs L i s) h (Cuckoo.innerStep us L i s) fun a b h' => a = b ∧ h' = h := by
  obtain ⟨k, j⟩ := s
  unfold innerStep Cuckoo.innerStep
  dsimp only
  by_cases h0 : 2 * L = 0
  · rw [if_pos h0, if_pos h0]
    intro b hb
    cases hb
  rw [if_neg h0, if_neg h0]
  by_cases h1 : (k + 2) % (2 * L) = i
  · rw [if_pos h1, if_pos h1]
    exact Runs.pure ⟨rfl, rfl⟩
  rw [if_neg h1, if_neg h1]
  refine Runs.val (runs_idx ku _) fun a _ => ?_
  refine Runs.val (runs_idx ku _) fun b _ => ?_
  by_cases h2 : a = b
  · rw [if_pos h2, if_pos h2]
    by_cases h3 : j ≠ i
    · rw [if_pos h3, if_pos h3]
      exact Runs.pure ⟨rfl, rfl⟩
    · rw [if_neg h3, if_neg h3]
      exact Runs.pure ⟨rfl, rfl⟩
  · rw [if_neg h2, if_neg h2]
    exact Runs.pure ⟨rfl, rfl⟩

theorem runs_outerStep {h : Heap} {uvs : Slice .dword} {us : List U64} (ku : Held h uvs us) (L fuel : Nat) (s : Nat × Nat) :
    Runs (outerStep uvs L fuel s) h (Cuckoo.outerStep us L fuel s) fun a b h' => a = b ∧ h' = h := by
  obtain ⟨i, n⟩ := s
  unfold outerStep Cuckoo.outerStep
  dsimp only
  refine Runs.val ?_ fun o _ => ?_
  · refine runs_forever (fun x y h' => x = y ∧ h' = h) (fun x y h' => x = y ∧ h' = h) ?_ fuel _ _ h ⟨rfl, rfl⟩
    rintro x _ _ ⟨rfl, rfl⟩
    exact Runs.post (runs_innerStep ku L i x) fun _ _ _ _ q => Same.related q
  · cases o with
    | none => exact Runs.pure ⟨rfl, rfl⟩
    | some j =>
      dsimp only
      by_cases h1 : j = i
      · rw [if_pos h1, if_pos h1]
        exact Runs.pure ⟨rfl, rfl⟩
      rw [if_neg h1, if_neg h1]
      by_cases h2 : j ^^^ 1 = 0
      · rw [if_pos h2, if_pos h2]
        exact Runs.pure ⟨rfl, rfl⟩
      rw [if_neg h2, if_neg h2]
      exact Runs.pure ⟨rfl, rfl⟩

theorem runs_walk (c : Client) (fuel : Nat) {h : Heap} {uvs : Slice .dword} {s : Ends} (ku : Held h uvs s.uvs) :
    Runs (walk c fuel uvs (s.xor0, s.xor1)) h (Cuckoo.walk c fuel s) fun a b h' => a = b ∧ h' = h := by
  unfold walk Cuckoo.walk
  dsimp only
  by_cases h0 : s.xor0 ||| s.xor1 ≠ 0
  · rw [if_pos h0, if_pos h0]
    exact Runs.pure ⟨rfl, rfl⟩
  rw [if_neg h0, if_neg h0]
  refine Runs.val ?_ fun r _ => ?_
  · refine runs_forever (fun x y h' => x = y ∧ h' = h) (fun x y h' => x = y ∧ h' = h) ?_ fuel _ _ h ⟨rfl, rfl⟩
    rintro x _ _ ⟨rfl, rfl⟩
    exact Runs.post (runs_outerStep ku _ fuel x) fun _ _ _ _ q => Same.related q
  · cases r with
    | error err => exact Runs.pure ⟨rfl, rfl⟩
    | ok n =>
      dsimp only
      by_cases h1 : (n : Int) ≠ c.proofSize
      · rw [if_pos h1, if_pos h1]
        exact Runs.pure ⟨rfl, rfl⟩
      rw [if_neg h1, if_neg h1]
      exact Runs.pure ⟨rfl, rfl⟩

theorem runs_cuckoo (c : Client) (fuel : Nat) (keys : Keys) {H : Heap} {edges : Slice .dword} {es : List U64} (ke : Held H edges es) :
    Runs (cuckoo c fuel keys edges) H (Cuckoo.cuckoo c fuel keys es) fun a b h' => a = b ∧ Frame H h' Go.none := by
  unfold cuckoo Cuckoo.cuckoo
  obtain ⟨uvs, H1, e1, F1, ku, nu⟩ := makes_make H .dword (2 * c.proofSize.toNat)
  dsimp only
  refine Runs.heap e1 ?_
  have hne : edges.arr ≠ uvs.arr := ke.ne nu F1
  refine Runs.bind (runs_forRangeE (Filled H1 uvs) (Failed H1 uvs) 0 _ _ _ H1 ⟨rfl, Frame.refl _ _, ku⟩ fun n a b h _ _ hf =>
    runs_cuckooBody c keys (ke.keep F1) hne n a b h hf) fun a b h' _ q => ?_
  cases a with
  | ret err =>
    cases b with
    | ret err' =>
      obtain ⟨rfl, G⟩ := q
      exact Runs.pure ⟨rfl, F1.write G nu⟩
    | cont s => exact q.elim
  | cont x =>
    cases b with
    | ret err' => exact q.elim
    | cont s =>
      obtain ⟨rfl, G, k⟩ := q
      refine Runs.post (runs_walk c fuel k) fun _ _ _ _ q => ⟨q.1, ?_⟩
      rw [q.2]
      exact F1.write G nu

theorem runs_cuckaroo (c : Client) (fuel : Nat) (keys : Keys) {H : Heap} {edges : Slice .dword} {es : List U64} (ke : Held H edges es) :
    Runs (cuckaroo c fuel keys edges) H (Cuckoo.cuckaroo c fuel keys es) fun a b h' => a = b ∧ Frame H h' Go.none := by
  unfold cuckaroo Cuckoo.cuckaroo
  obtain ⟨uvs, H1, e1, F1, ku, nu⟩ := makes_make H .dword (2 * c.proofSize.toNat)
  dsimp only
  refine Runs.heap e1 ?_
  have hne : edges.arr ≠ uvs.arr := ke.ne nu F1
  refine Runs.bind (runs_forRangeE (Filled H1 uvs) (Failed H1 uvs) 0 _ _ _ H1 ⟨rfl, Frame.refl _ _, ku⟩ fun n a b h _ _ hf =>
    runs_cuckarooBody c keys (ke.keep F1) hne n a b h hf) fun a b h' _ q => ?_
  cases a with
  | ret err =>
    cases b with
    | ret err' =>
      obtain ⟨rfl, G⟩ := q
      exact Runs.pure ⟨rfl, F1.write G nu⟩
    | cont s => exact q.elim
  | cont x =>
    cases b with
    | ret err' => exact q.elim
    | cont s =>
      obtain ⟨rfl, G, k⟩ := q
      refine Runs.post (runs_walk c fuel k) fun _ _ _ _ q => ⟨q.1, ?_⟩
      rw [q.2]
      exact F1.write G nu

theorem runs_headerKeys (P : Prims) {H : Heap} {header : Slice .byte} {xs : List Byte} (kh : Held H header xs) :
    Runs (headerKeys P header) H (Cuckoo.headerKeys P xs) fun a b h' => a = b ∧ Frame H h' Go.none := by
  unfold headerKeys Cuckoo.headerKeys
  refine (Crypto.InMem.makes_blake2b256 P kh).bind fun hash H1 F1 k1 _ => ?_
  refine runs_slc_bind k1 _ _ fun r _ _ _ kr => ?_
  refine Runs.val (runs_getU64 kr .little) fun s0 _ => ?_
  refine runs_slc_bind k1 _ _ fun r _ _ _ kr => ?_
  refine Runs.val (runs_getU64 kr .little) fun s1 _ => ?_
  refine runs_slc_bind k1 _ _ fun r _ _ _ kr => ?_
  refine Runs.val (runs_getU64 kr .little) fun s2 _ => ?_
  refine runs_slc_bind k1 _ _ fun r _ _ _ kr => ?_
  refine Runs.val (runs_getU64 kr .little) fun s3 _ => ?_
  exact Runs.pure ⟨rfl, F1⟩

theorem runs_verify (P : Prims) (c : Client) (fuel : Nat) {H : Heap} {header : Slice .byte} {xs : List Byte} {sols : Slice .dword} {es : List U64}
    (kh : Held H header xs) (ke : Held H sols es) :
    Runs (verify P c fuel header sols) H (Cuckoo.verify P c fuel xs es) fun a b h' => a = b ∧ Frame H h' Go.none := by
  unfold verify Cuckoo.verify
  rw [show es.length = sols.len from ke.len]
  by_cases h0 : (sols.len : Int) ≠ c.proofSize
  · rw [if_pos h0, if_pos h0]
    exact Runs.pure ⟨rfl, Frame.refl _ _⟩
  rw [if_neg h0, if_neg h0]
  refine Runs.bind (runs_headerKeys P kh) fun keys _ H1 _ q => ?_
  obtain ⟨rfl, F1⟩ := q
  have ke1 := ke.keep F1
  cases c.variant with
  | cuckoo => exact Runs.post (runs_cuckoo c fuel keys ke1) fun _ _ _ _ q => ⟨q.1, F1.trans q.2⟩
  | cuckaroo => exact Runs.post (runs_cuckaroo c fuel keys ke1) fun _ _ _ _ q => ⟨q.1, F1.trans q.2⟩
  | _ => exact Runs.pure ⟨rfl, F1⟩

end Cuckoo.InMem

end Verif
