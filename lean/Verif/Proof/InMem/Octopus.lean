import Verif.Model.InMem.Octopus
import Verif.Proof.InMem.Ethash

/-! # Octopus with memory -/

set_option autoImplicit false

namespace Verif.Octopus.InMem

open Go Siphash Crypto.InMem Convutil.InMem

theorem runs_fill {h : Heap} (v0 v1 v2 v3 warpID : U64) {d : Slice .word} {ds : List U32} (hd : Held h d ds) :
    Writes (fill v0 v1 v2 v3 warpID d) h d (Go.forRange 0 powWarpSize ds (warpStep v0 v1 v2 v3 warpID)) := by
  unfold fill
  refine runs_each 0 powWarpSize hd fun i h1 ys _ _ f1 k1 => ?_
  unfold warpStep
  refine Runs.last (k := fun _ => ()) (l := Prod.snd) (Q := fun (a : SipHasher) (b : SipHasher × List U32) h' => a = b.1 ∧ Frame h1 h' (only d) ∧ Held h' d b.2) ?_ fun a b h' _ q => q.2
  refine runs_forRange (fun (a : SipHasher) (b : SipHasher × List U32) h' => a = b.1 ∧ Frame h1 h' (only d) ∧ Held h' d b.2) 0 _ _ (_, ys) h1 ⟨rfl, Frame.refl _ _, k1⟩ ?_
  rintro j a b h2 _ _ ⟨rfl, f2, k2⟩
  unfold dataStep Octopus.dataStep
  exact Runs.last (runs_upd k2 _ _) fun _ b h' _ q => ⟨rfl, f2.trans q.1, q.2⟩

theorem runs_evaluate {h : Heap} (a b c w nonce : U64) {d : Slice .word} {ds : List U32} (hd : Held h d ds) :
    Runs (evaluate a b c w nonce d) h (Octopus.evaluate a b c w nonce ds)
      fun x y h' => x.1 = y.1 ∧ Frame h h' none ∧ Held h' x.2 y.2 ∧ newer h .word x.2.arr := by
  unfold evaluate Octopus.evaluate
  refine Runs.val Runs.lift fun pows _ => ?_
  refine Runs.val Runs.lift fun full _ => ?_
  refine (makes_make h .word powDataPerThread).bind fun resBuf h1 F1 kr nr => ?_
  have hne : d.arr ≠ resBuf.arr := hd.ne nr F1
  replace hd := hd.keep F1
  refine Runs.last (Q := fun x (y : EvalState) h' => x = (y.wpow, y.w2pow, y.result) ∧ Frame h1 h' (only resBuf) ∧ Held h' resBuf y.resBuf) ?_
    fun x y h' _ q => ⟨by rw [q.1], F1.write q.2.1 nr, q.2.2, nr⟩
  refine runs_forRange (fun x (y : EvalState) h' => x = (y.wpow, y.w2pow, y.result) ∧ Frame h1 h' (only resBuf) ∧ Held h' resBuf y.resBuf)
    0 _ _ _ h1 ⟨rfl, Frame.refl _ _, kr⟩ ?_
  rintro i x y h2 _ _ ⟨rfl, f2, k2⟩
  have hd2 := hd.other f2 (Or.inr hne)
  unfold evalStep Octopus.evalStep
  dsimp only
  refine Runs.val ?_ fun pv _ => ?_
  · refine runs_forRange (fun x y h' => x = y ∧ h' = h2) 0 _ _ _ h2 ⟨rfl, rfl⟩ ?_
    rintro j x _ _ _ _ ⟨rfl, rfl⟩
    unfold hornerStep Octopus.hornerStep
    exact Runs.last (runs_idx hd2 _) fun _ _ _ _ q => ⟨by rw [q.1], q.2⟩
  · refine Runs.bind (runs_upd k2 i _) fun _ rs h3 _ q => ?_
    by_cases hc : i + 1 < powDataPerThread
    · rw [if_pos hc, if_pos hc]
      exact Runs.pure ⟨rfl, f2.trans q.1, q.2⟩
    · rw [if_neg hc, if_neg hc]
      exact Runs.pure ⟨rfl, f2.trans q.1, q.2⟩

theorem builds_initHalfMix (P : Prims) {h : Heap} {hash : Slice .byte} {xs : List Byte} (hh : Held h hash xs) (result : U64) :
    Builds (initHalfMix P hash result) h (Octopus.initHalfMix P xs result) := by
  unfold initHalfMix Octopus.initHalfMix
  rw [show xs.length = hash.len from hh.len]
  refine (makes_make h .byte nodeBytes).bind fun half H1 F1 kf nf => ?_
  refine (runs_copy kf (hh.keep F1)).bind fun fs H2 _ G kf => ?_
  have F2 := F1.write G nf
  refine (runs_putU64 kf .little _ result).bind fun fs H3 _ G kf => ?_
  have F3 := F2.write G nf
  refine runs_slc_bind kf _ _ fun data ds _ _ kd => ?_
  have := (makes_keccak512 P kd).builds
  intro b hb
  obtain ⟨a, h', e, F, k, n⟩ := this b hb
  exact ⟨a, h', e, F3.trans F, k, newer.mono F3 n⟩

theorem runs_nodeStep {H h : Heap} {L : Lookup} {l : Octopus.Lookup} (hL : Ethash.InMem.Like H L l) (page : U32) {mix : Slice .word} {ms : List U32}
    (F : Frame H h none) (km : Held h mix ms) (n : Nat) : Writes (nodeStep L page mix n) h mix (Octopus.nodeStep l page n ms) := by
  unfold nodeStep Octopus.nodeStep
  refine Runs.bind (hL h F _) fun node ns h1 _ q => ?_
  obtain ⟨G, kn, nn⟩ := q
  have hne : node.arr ≠ mix.arr := (km.ne nn G).symm
  replace km := km.keep G
  obtain ⟨lo, hlo⟩ : ∃ lo, lo = n * mixNodes * 4 := ⟨_, rfl⟩
  obtain ⟨hi, hhi⟩ : ∃ hi, hi = (n + 1) * mixNodes * 4 := ⟨_, rfl⟩
  rw [← hlo, ← hhi]
  by_cases hc : lo ≤ hi ∧ hi ≤ ms.length
  · have e : slc ms lo hi = .ok ((ms.take hi).drop lo) := by unfold slc; rw [if_pos hc]
    have hlen : ((ms.take hi).drop lo).length = hi - lo := by rw [List.length_drop, List.length_take, Nat.min_eq_left hc.2]
    rw [e]
    show Runs _ h1 (Go.forRange 0 ((ms.take hi).drop lo).length ms (nodeWordStep ns n)) _
    rw [hlen]
    refine Runs.heap (held_slc km hc.1 hc.2).1 ?_
    refine Runs.post (runs_each 0 (hi - lo) km fun i h2 ys _ hi2 f2 k2 => ?_) fun _ b h' _ q => ⟨(G.none_only _).trans q.1, q.2⟩
    have kn2 := kn.other f2 (Or.inr hne)
    have hy : hi ≤ ys.length := by rw [k2.len, ← km.len]; exact hc.2
    unfold nodeWordStep
    rw [← hlo]
    have hr := runs_idx (held_slc k2 hc.1 hy).2 i
    have hidx : Go.idx ((ys.take hi).drop lo) i = Go.idx ys (lo + i) := by
      unfold Go.idx
      rw [List.getElem?_drop, List.getElem?_take_of_lt (by omega)]
    rw [hidx] at hr
    refine Runs.val hr fun a _ => ?_
    exact Runs.val (runs_idx kn2 i) fun b _ => runs_upd k2 _ _
  · have e : slc ms lo hi = panic .slice := by unfold slc; rw [if_neg hc]; rfl
    rw [e]
    intro b hb
    cases hb

theorem runs_reduce4 {h : Heap} {mix : Slice .word} {ms : List U32} (km : Held h mix ms) (w : Nat) :
    Runs (reduce4 mix w) h (Octopus.reduce4 ms w) fun a b h' => a = b ∧ h' = h := by
  unfold reduce4 Octopus.reduce4
  refine Runs.val (runs_idx km _) fun _ _ => ?_
  refine Runs.val (runs_idx km _) fun _ _ => ?_
  refine Runs.val (runs_idx km _) fun _ _ => ?_
  exact Runs.last (runs_idx km _) fun _ _ _ _ q => ⟨by rw [q.1], q.2⟩

theorem builds_mixing (P : Prims) {H : Heap} {half : Slice .byte} {hs : List Byte} {resBuf : Slice .word} {rs : List U32} (kh : Held H half hs)
    (kr : Held H resBuf rs) (size : U64) {L : Lookup} {l : Octopus.Lookup} (hL : Ethash.InMem.Like H L l) :
    Builds (mixing P half resBuf size L) H (Octopus.mixing P hs rs size l) := by
  unfold mixing Octopus.mixing
  obtain ⟨nil, H1, e, F1, kn, nn⟩ := makes_lit H .byte []
  refine Runs.heap e ?_
  have hrep : Runs (Mem.forRange 0 4 nil fun _ mix => Mem.append mix half) H1 (Go.forRange 0 4 [] (repeatStep hs))
      fun a b h' => Frame H h' none ∧ Held h' a b ∧ newer H .byte a.arr := by
    refine runs_forRange (fun (a : Slice .byte) b h' => Frame H h' none ∧ Held h' a b ∧ newer H .byte a.arr) 0 _ _ _ H1 ⟨F1, kn, nn⟩ ?_
    rintro j a b h _ _ ⟨F, k, n⟩ c hc
    obtain rfl := Except.ok.inj hc
    obtain ⟨q, h', e, G, kq, nq⟩ := append_ok k (kh.keep F)
    refine ⟨q, h', e, F.write G n, kq, ?_⟩
    obtain ⟨e, _⟩ | ⟨n', _⟩ := nq
    · rw [e]; exact n
    · exact newer.mono F n'
  refine Runs.bind hrep fun mix ms H2 _ q => ?_
  obtain ⟨F2, km, nm⟩ := q
  replace kh := kh.keep F2
  replace kr := kr.keep F2
  refine runs_slc_bind kh _ _ fun head hd _ _ khd => ?_
  refine Runs.val (runs_getU32 khd .little) fun firstVal _ => ?_
  refine Runs.bind (builds_bytesToUint32Array km .little) fun mw ws H3 _ q => ?_
  obtain ⟨G, kw, nw⟩ := q
  have hne : resBuf.arr ≠ mw.arr := kr.ne nw G
  have F3 := F2.trans G
  replace kr := kr.keep G
  replace km := km.keep G
  replace nw := newer.mono F2 nw
  have hacc : Writes (Mem.each 0 powAccesses (accessStep L firstVal ((size / BitVec.ofNat 64 (4 * mixWords)).setWidth 32) resBuf mw)) H3 mw
      (Go.forRange 0 powAccesses ws (Octopus.accessStep l firstVal ((size / BitVec.ofNat 64 (4 * mixWords)).setWidth 32) rs)) := by
    refine runs_each 0 powAccesses kw fun i h1 ys _ _ f1 k1 => ?_
    unfold accessStep Octopus.accessStep
    refine Runs.val (runs_idx (kr.other f1 (Or.inr hne)) _) fun r _ => ?_
    refine Runs.val (runs_idx k1 _) fun m _ => ?_
    refine Runs.val Runs.lift fun page _ => ?_
    exact runs_each 0 mixNodes k1 fun n h2 zs _ _ f2 k2 => runs_nodeStep hL page ((F3.write f1 nw).write f2 nw) k2 n
  refine hacc.bind fun ws H4 _ G kw => ?_
  have F4 := F3.write G nw
  replace km := km.other G (Or.inl (by decide))
  refine (makes_make H4 .word 8).bind fun cw H5 G kc nc => ?_
  have hne : mw.arr ≠ cw.arr := kw.ne nc G
  have F5 := F4.trans G
  replace km := km.keep G
  replace kw := kw.keep G
  replace nc := newer.mono F4 nc
  have hcomp : Writes _ H5 cw (Go.forRange 0 8 (List.replicate 8 0) (Octopus.compressStep ws)) :=
    runs_each (f := fun i => do
      let reduction ← reduce4 mw (i * 4)
      let reduction2 ← reduce4 mw ((8 + i) * 4)
      Mem.upd cw i (reduction * BitVec.ofNat 32 Crypto.fnvPrime ^^^ reduction2)) 0 8 kc fun j h1 ys _ _ f1 k1 => by
        have kw1 := kw.other f1 (Or.inr hne)
        unfold Octopus.compressStep
        refine Runs.val (runs_reduce4 kw1 _) fun a _ => ?_
        exact Runs.val (runs_reduce4 kw1 _) fun b _ => runs_upd k1 _ _
  refine hcomp.bind fun cs H6 _ G kc => ?_
  have F6 := F5.write G nc
  replace km := km.other G (Or.inl (by decide))
  refine Runs.bind (builds_uint32ArrayToBytes kc .little) fun cb bs H7 _ q => ?_
  obtain ⟨G, kb, nb⟩ := q
  have F7 := F6.trans G
  replace km := km.keep G
  refine runs_slc_bind km _ _ fun front fs hf _ kf => ?_
  obtain ⟨long, H8, e, G, kl, nl⟩ := append_ok kf kb
  refine Runs.heap e ?_
  have F8 := F7.write G (show newer H .byte front.arr by rw [hf]; exact nm)
  intro b hb
  obtain ⟨a, h', e, F, k, n⟩ := (makes_keccak256 P kl).builds b hb
  exact ⟨a, h', e, F8.trans F, k, newer.mono F8 n⟩

theorem builds_octopus (P : Prims) (fuel : Nat) {H : Heap} {hash : Slice .byte} {xs : List Byte} (hh : Held H hash xs) (nonce size : U64) {L : Lookup}
    {l : Octopus.Lookup} (hL : Ethash.InMem.Like H L l) : Builds (octopus P fuel hash nonce size L) H (Octopus.octopus P fuel xs nonce size l) := by
  unfold octopus Octopus.octopus
  have rd : ∀ lo hi, Runs (Mem.slc hash lo hi >>= Mem.getU64 .little) H (slc xs lo hi >>= Go.getU64 .little) fun a b h' => a = b ∧ h' = H := fun lo hi =>
    runs_slc_bind hh lo hi fun r b _ _ kr => runs_getU64 kr _
  refine Runs.val (rd 0 8) fun v0 _ => ?_
  refine Runs.val (rd 8 16) fun v1 _ => ?_
  refine Runs.val (rd 16 24) fun v2 _ => ?_
  refine Runs.val (rd 24 32) fun v3 _ => ?_
  refine (makes_make H .word powN).bind fun d H1 F1 kd nd => ?_
  refine Runs.val Runs.lift fun a _ => ?_
  refine Runs.val Runs.lift fun b _ => ?_
  refine Runs.val Runs.lift fun c _ => ?_
  refine Runs.val Runs.lift fun w _ => ?_
  refine (runs_fill v0 v1 v2 v3 _ kd).bind fun ds H2 _ G kd => ?_
  have F2 := F1.write G nd
  refine Runs.bind (runs_evaluate a b c w nonce kd) fun x y H3 _ q => ?_
  obtain ⟨x1, x2⟩ := x
  obtain ⟨y1, y2⟩ := y
  obtain ⟨rfl, G, kr, nr⟩ := q
  have F3 := F2.trans G
  refine Runs.bind (builds_initHalfMix P (hh.keep F3) x1) fun half fs H4 _ q => ?_
  obtain ⟨G, kf, _⟩ := q
  have F4 := F3.trans G
  intro b hb
  obtain ⟨a, h', e, F, k, n⟩ := builds_mixing P kf (kr.keep G) size (hL.mono F4) b hb
  exact ⟨a, h', e, F4.trans F, k, newer.mono F4 n⟩

end Verif.Octopus.InMem
