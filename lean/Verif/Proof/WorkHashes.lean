import Verif.Proof.Work
import Verif.Proof.EquihashLong
import Verif.Model.Autolykos
import Verif.Model.Heavy
import Verif.Model.Cuckoo
import Verif.Model.Beam
import Verif.Model.Equihash
import Verif.Model.Hashimoto
import Verif.Model.Octopus
import Verif.Model.Kawpow
import Verif.Model.Generate
import Verif.Model.Clients
import Verif.Proof.Generate

/-! # The evaluations and reads of the algorithms -/

set_option autoImplicit false

namespace Verif.Proof.Work

open Go Spec

/-! ## Autolykos -/

theorem autolykos_genIndexes (seed : List Byte) (k n : U32) : DeterminedBy evaluate 1 (fun P => Autolykos.genIndexes P seed k n) :=
  map (fun hash => Go.forRange 0 k.toNat (List.replicate k.toNat 0) (Autolykos.indexStep (hash ++ hash) n)) (blake2b256 seed)

theorem genIndexes_length (P : Prims) (seed : List Byte) (k n : U32) (indexes : List U32) (h : Autolykos.genIndexes P seed k n = .ok indexes) :
    indexes.length = k.toNat := by
  refine forRange_keeps (fun l => l.length = k.toNat) (fun i s s' hs hi => ?_) List.length_replicate h
  obtain ⟨_, _, hi⟩ := of_bind hi
  obtain ⟨_, _, hi⟩ := of_bind hi
  obtain ⟨_, _, hi⟩ := of_bind hi
  rw [upd_keeps hi, hs]

theorem autolykos_sumStep (h m : List Byte) (indexes : List U32) (j f2 : Nat) :
    DeterminedBy evaluate 1 (fun P => Autolykos.sumStep P h m indexes j f2) := by
  refine mono (n := 0 + (0 + 1)) (bind (const _) fun index => bind (const _) fun ib => ?_) (by decide)
  exact map (fun hash => do
    let elemHash ← slc hash 1 hash.length
    pure (f2 + beNat elemHash)) (blake2b256 _)

theorem autolykos (k nBase : U32) (msg : List Byte) (nonce height : U64) :
    DeterminedBy evaluate (k.toNat + 4) (fun P => Autolykos.compute P k nBase msg nonce height) := by
  refine mono (n := 0 + (0 + (0 + (0 + (1 + (0 + (0 + (0 + (1 + (1 + (k.toNat * 1 + 1))))))))))) ?_ (by omega)
  refine bind (const _) fun m => bind (const _) fun h => bind (const _) fun nonceBytes => bind (const _) fun n => ?_
  refine app (k := fun msgHash P => do
    let tail ← slc msgHash 24 32
    let r ← Autolykos.bigMod (beNat tail) (n.setWidth 64 : U64).toNat
    let i ← Convutil.uint32ToBytes ((BitVec.ofNat 64 r : U64).setWidth 32) .big
    let f ← slc (P.blake2b256 (Autolykos.concatBytes i (Autolykos.concatBytes h m))) 1 32
    let indexes ← Autolykos.genIndexes P (Autolykos.concatBytes f (Autolykos.concatBytes msg nonceBytes)) k n
    let f2 ← Go.forRange 0 indexes.length 0 (Autolykos.sumStep P h m indexes)
    pure (P.blake2b256 (Autolykos.bigBytes f2))) (blake2b256 _) fun msgHash => ?_
  refine bind (const _) fun tail => bind (const _) fun r => bind (const _) fun i => ?_
  refine bind (map (fun d => slc d 1 32) (blake2b256 _)) fun f => ?_
  refine bind_of (autolykos_genIndexes _ k n) fun P indexes hi => bind ?_ fun f2 => map (fun d => pure d) (blake2b256 _)
  have hl : indexes.length = k.toNat := (genIndexes_length P _ k n indexes hi)
  rw [← hl]
  exact forRange (f := fun P => Autolykos.sumStep P h m indexes) (fun j f2 => autolykos_sumStep h m indexes j f2) 0 indexes.length 0

theorem autolykos_client (c : Autolykos.Client) (msg : List Byte) (height nonce : U64) :
    DeterminedBy evaluate (c.k.toNat + 4) (fun P => Autolykos.Client.compute P c msg height nonce) :=
  cond' (mono (const _) (Nat.zero_le _)) (bind (m := 0) (autolykos _ _ _ _ _) fun _ => const _)

/-! ## HeavyHash -/

theorem heavy {F : Type} (N : Heavy.Num F) (fuel : Nat) (hash : List Byte) (timestamp nonce : U64) :
    DeterminedBy evaluate 2 (fun P => Heavy.heavyHash N P fuel hash timestamp nonce) := by
  refine mono (n := 0 + (0 + (0 + (0 + (0 + (0 + (0 + (0 + (0 + (0 + (0 + (1 + (0 + (0 + (0 + 1))))))))))))))) ?_ (by decide)
  refine bind (const _) fun _ => bind (const _) fun s0 => bind (const _) fun _ => bind (const _) fun s1 => ?_
  refine bind (const _) fun _ => bind (const _) fun s2 => bind (const _) fun _ => bind (const _) fun s3 => ?_
  refine bind (const _) fun mat => bind (const _) fun _ => bind (const _) fun header => ?_
  refine app (k := fun header (P : Prims) => do
    let v ← Go.forRange 0 (Heavy.size / 2) (List.replicate Heavy.size (0 : U16)) (Heavy.vectorStep header)
    let p ← Go.forRange 0 Heavy.size (List.replicate Heavy.size (0 : U16)) (Heavy.productStep mat v)
    let digest ← Go.forRange 0 32 (List.replicate 32 (0 : Byte)) (Heavy.digestStep header p)
    let digest := Heavy.cshake256 P digest ("HeavyHash".toList.map fun (ch : Char) => BitVec.ofNat 8 ch.toNat) 32
    Go.forRange 0 (digest.length / 2) digest Heavy.swapStep) (cshake256 _ _ _) fun header => ?_
  refine bind (const _) fun v => bind (const _) fun p => bind (const _) fun digest => ?_
  exact map (fun d => Go.forRange 0 (d.length / 2) d Heavy.swapStep) (cshake256 _ _ _)

theorem heavy_compute {F : Type} (N : Heavy.Num F) (fuel : Nat) (hash : List Byte) (timestamp nonce : U64) :
    DeterminedBy evaluate 2 (fun P => Heavy.compute N P fuel hash timestamp nonce) :=
  cond' (mono (const _) (Nat.zero_le _)) (bind (m := 0) (heavy N _ _ _ _) fun _ => const _)

/-! ## Cuckoo, BeamHash -/

theorem cuckoo (c : Cuckoo.Client) (fuel : Nat) (header : List Byte) (sols : List U64) :
    DeterminedBy evaluate 1 (fun P => Cuckoo.verify P c fuel header sols) := fun P =>
  ⟨[.blake2b256 header], Nat.le_refl _, fun P' h => by
    have h0 : P'.blake2b256 header = P.blake2b256 header := h _ (List.mem_singleton.mpr rfl)
    show Cuckoo.verify P' c fuel header sols = Cuckoo.verify P c fuel header sols
    unfold Cuckoo.verify Cuckoo.headerKeys
    rw [h0]⟩

theorem blake2b (data personal : List Byte) (size : Nat) : DeterminedBy evaluate 1 (fun P => Crypto.blake2b P data personal size) :=
  cond' (mono (const _) (Nat.zero_le _)) (map (fun d => Except.ok d) (blake2bRaw _ _ _))

theorem beam_prePow (personal header soln : List Byte) : DeterminedBy evaluate 1 (fun P => Beam.initializePrePow P personal header soln) := by
  refine mono (n := 0 + (0 + (0 + (0 + (0 + (0 + (0 + (1 + 0)))))))) ?_ (by decide)
  refine bind (const _) fun _ => bind (const _) fun _ => bind (const _) fun _ => bind (const _) fun _ => ?_
  refine bind (const _) fun _ => bind (const _) fun _ => bind (const _) fun _ => bind (blake2b _ _ _) fun _ => const _

theorem beam (fuel : Nat) (c : Beam.Client) (header soln : List Byte) :
    DeterminedBy evaluate 1 (fun P => Beam.Client.verify P fuel c header soln) :=
  cond' (mono (const _) (Nat.zero_le _)) (cond' (mono (const _) (Nat.zero_le _)) (bind (m := 0) (beam_prePow _ _ _) fun _ => const _))

/-! ## Equihash -/

theorem blakeOffset (header ps : List Byte) (g : U32) (size : Nat) :
    DeterminedBy evaluate 1 (fun P => Equihash.hashBlakeWithOffset P header ps g size) := by
  refine mono (n := 0 + (0 + 1)) ?_ (by decide)
  exact bind (const _) fun _ => bind (const _) fun _ => blake2b _ _ _

theorem twistLoop (header ps : List Byte) (g : U32) (hg : g.toNat < 2 ^ 32 - 1) (size : Nat) (fuel : Nat) :
    ∀ (m : Nat) (s : U32) (acc : List U32), g.toNat < s.toNat + m →
      DeterminedBy evaluate m (fun P => forever fuel (s, acc) (Equihash.twistStep P header ps g size)) := by
  induction fuel with
  | zero => exact fun m s acc _ => mono (const _) (Nat.zero_le _)
  | succ fuel ih =>
    intro m s acc hm
    by_cases hs : s ≤ g
    · have hs' : s.toNat ≤ g.toNat := hs
      have e : ∀ P, forever (fuel + 1) (s, acc) (Equihash.twistStep P header ps g size) = (do
          let tmpHash ← Equihash.hashBlakeWithOffset P header ps s size
          let myHash ← Go.forRange 0 16 acc (Equihash.laneStep tmpHash)
          forever fuel (s + 1, myHash) (Equihash.twistStep P header ps g size)) := fun P => by
        show (Equihash.twistStep P header ps g size (s, acc) >>= _) = _
        unfold Equihash.twistStep
        rw [if_pos hs, bind_assoc]
        refine congrArg _ (funext fun tmp => ?_)
        rw [bind_assoc]
        rfl
      simp only [e]
      refine mono (n := 1 + (0 + (m - 1))) ?_ (by omega)
      refine bind (blakeOffset _ _ _ _) fun tmp => bind (const _) fun acc' => ih (m - 1) (s + 1) acc' ?_
      have : (s + 1).toNat = s.toNat + 1 := by
        rw [BitVec.toNat_add]
        show (s.toNat + 1) % 2 ^ 32 = _
        exact Nat.mod_eq_of_lt (by omega)
      omega
    · have e : ∀ P, forever (fuel + 1) (s, acc) (Equihash.twistStep P header ps g size) = .ok acc := fun P => by
        show (Equihash.twistStep P header ps g size (s, acc) >>= _) = _
        unfold Equihash.twistStep
        rw [if_neg hs]
        rfl
      simp only [e]
      exact mono (const _) (Nat.zero_le _)

theorem generateHash (fuel : Nat) (header ps : List Byte) (g : U32) (hg : g.toNat < 2 ^ 32 - 1) (size : Nat) (twist : Bool) :
    DeterminedBy evaluate (if twist then 16 else 1) (fun P => Equihash.generateHash P fuel header ps g size twist) := by
  cases twist with
  | false => exact blakeOffset _ _ _ _
  | true =>
    refine mono (n := 16 + 0) ?_ (by decide)
    refine bind (twistLoop header ps g hg size fuel 16 _ _ ?_) fun _ => const _
    rw [Equihash.start_eq, BitVec.toNat_ofNat, Nat.mod_eq_of_lt (by omega)]
    omega

theorem newNode (fuel n k : Nat) (ps : List Byte) (twist : Bool) (header : List Byte) (i : U32) (hi : i.toNat < 2 ^ 32 - 1) :
    DeterminedBy evaluate (if twist then 16 else 1) (fun P => Equihash.newNode P fuel n k ps twist header i) := by
  refine mono (n := 0 + (0 + (0 + ((if twist then 16 else 1) + 0)))) ?_ (by omega)
  refine bind (const _) fun per => bind_of (const _) fun P g hg => bind (const _) fun size => bind (generateHash _ _ _ _ ?_ _ _) fun _ => const _
  have : g ≤ i.toNat := by
    unfold Equihash.divN at hg
    by_cases h0 : per = 0
    · rw [if_pos h0] at hg
      cases hg
    · rw [if_neg h0] at hg
      rw [← Except.ok.inj hg]
      exact Nat.div_le_self _ _
  rw [BitVec.toNat_ofNat, Nat.mod_eq_of_lt (by omega)]
  omega

theorem equihash_rowStep (fuel n k : Nat) (ps : List Byte) (twist : Bool) (header : List Byte) (indices : List U32)
    (hi : ∀ i ∈ indices, i.toNat < 2 ^ 32 - 1) (j : Nat) (rows : List Equihash.Node) :
    DeterminedBy evaluate (if twist then 16 else 1) (fun P => Equihash.rowStep P fuel n k ps twist header indices j rows) := by
  refine mono (n := 0 + ((if twist then 16 else 1) + 0)) ?_ (by omega)
  refine bind_of (const _) fun P ix hx => bind (newNode _ _ _ _ _ _ _ (hi ix ?_)) fun _ => const _
  unfold idx at hx
  cases h : indices[j]? with
  | none => rw [h] at hx; cases hx
  | some a =>
    rw [h] at hx
    exact Except.ok.inj hx ▸ List.mem_of_getElem? h

theorem equihash {q : Spec.Equihash.Params} (h : q.WF) (fuel : Nat) (header soln : List Byte) :
    DeterminedBy evaluate (2 ^ q.k * (if q.twist then 16 else 1)) (fun P => Equihash.verify P fuel q.n q.k q.personal header soln q.twist) := by
  by_cases h32 : soln.length < 2 ^ 32
  · refine mono (n := 0 + (0 + (0 + (0 + 2 ^ q.k * (if q.twist then 16 else 1))))) ?_ (by omega)
    refine bind (const _) fun _ => bind (const _) fun _ => bind (const _) fun ps => bind_of (const _) fun P r hr => ?_
    cases r with
    | error e => exact mono (const _) (Nat.zero_le _)
    | ok indices =>
      rw [Equihash.decode_eq h soln h32] at hr
      by_cases hl : soln.length = q.solLen
      · rw [if_pos hl] at hr
        have hr : (Spec.Equihash.indices q soln).map (BitVec.ofNat 32) = indices := Except.ok.inj (Except.ok.inj hr)
        have hn : indices.length = 2 ^ q.k := by rw [← hr, List.length_map, Equihash.indices_length]
        rw [← hn]
        refine mono (n := (indices.length - 0) * (if q.twist then 16 else 1) + 0) ?_ (Nat.le_refl _)
        refine bind (forRangeE (f := fun P => Equihash.rowStep P fuel q.n q.k ps q.twist header indices)
          (fun j rows => equihash_rowStep fuel q.n q.k ps q.twist header indices (fun i hi => ?_) j rows) 0 indices.length []) fun r => ?_
        · rw [← hr] at hi
          obtain ⟨j, hj, rfl⟩ := List.mem_map.mp hi
          have := Equihash.indices_lt h soln j hj
          rw [BitVec.toNat_ofNat, Nat.mod_eq_of_lt (by omega)]
          omega
        · exact const _
      · rw [if_neg hl] at hr
        cases Except.ok.inj hr
  · have e : ∀ P, Equihash.verify P fuel q.n q.k q.personal header soln q.twist = _ :=
      fun P => Equihash.verify_long P header h soln (by omega) fuel
    simp only [e]
    exact mono (const _) (Nat.zero_le _)

/-! ## Ethash, Octopus, ProgPoW: dataset items -/

/-- Ethash reads 64 pairs of items. -/
theorem hashimoto_items (P : Prims) (hash : List Byte) (nonce size : U64) :
    DeterminedBy item 128 (fun lookup => Ethash.hashimoto P hash nonce size lookup) := by
  refine mono (n := 0 + (0 + (0 + (0 + ((64 - 0) * (0 + (0 + ((2 - 0) * (1 + 0) + (0 + 0)))) + 0))))) ?_ (by decide)
  refine bind (const _) fun _ => bind (const _) fun _ => bind (const _) fun seedHead => bind (const _) fun mix => ?_
  refine bind (forRange (f := fun lookup => Ethash.hashimotoStep lookup _ seedHead) (fun i st => ?_) 0 64 _) fun _ => const _
  refine bind (const _) fun m => bind (const _) fun parent => ?_
  refine bind (forRange (f := fun lookup => Ethash.lookupStep lookup parent) (fun j temp => ?_) 0 2 _) fun _ =>
    bind (const _) fun _ => const _
  exact bind (asks (ask := item) _) fun _ => const _

/-- Octopus reads 32 pages of 4 items. -/
theorem octopus_items (P : Prims) (fuel : Nat) (hash : List Byte) (nonce size : U64) :
    DeterminedBy item 128 (fun lookup => Octopus.octopus P fuel hash nonce size lookup) := by
  refine mono (n := 0 + (0 + (0 + (0 + (0 + (0 + (0 + (0 + (0 + (0 + (0 + (0 + (0 + (0 + (0 + ((32 - 0) * (0 + (0 + (0 + (4 - 0) * (1 + 0)))) +
    0)))))))))))))))) ?_ (by decide)
  refine bind (const _) fun _ => bind (const _) fun _ => bind (const _) fun _ => bind (const _) fun _ => ?_
  refine bind (const _) fun _ => bind (const _) fun _ => bind (const _) fun _ => bind (const _) fun _ => ?_
  refine bind (const _) fun _ => bind (const _) fun _ => bind (const _) fun half => ?_
  refine bind (const _) fun _ => bind (const _) fun _ => bind (const _) fun firstVal => bind (const _) fun words => ?_
  refine bind (forRange (f := fun lookup => Octopus.accessStep lookup firstVal _ _) (fun i mix => ?_) 0 32 _) fun _ => const _
  refine bind (const _) fun _ => bind (const _) fun _ => bind (const _) fun page => ?_
  refine forRange (f := fun lookup => Octopus.nodeStep lookup page) (fun n mix => ?_) 0 4 _
  exact bind (asks (ask := item) _) fun _ => const _

section

variable (cfg : Progpow.Config)

/-- ProgPoW reads one item in a round. -/
theorem progpow_items (height seed size : U64) (l1 : List U32) :
    DeterminedBy item cfg.roundCount (fun lookup => Progpow.hash cfg height seed size lookup l1) := by
  refine mono (n := 0 + (0 + ((cfg.roundCount - 0) * (0 + (0 + (0 + (0 + (0 + (1 + 0)))))) + 0))) ?_ (by omega)
  refine bind (const _) fun mix => bind (const _) fun number => ?_
  refine bind (forRange (f := fun lookup => Progpow.hashRound cfg number size lookup l1) (fun i mix => ?_) 0 _ _) fun _ => const _
  refine bind (const _) fun state => bind (const _) fun lane => bind (const _) fun row => bind (const _) fun x => bind (const _) fun index => ?_
  exact bind (asks (ask := item) _) fun _ => const _

variable {n : Nat}

theorem l1_word (i : Nat) : DeterminedBy word 1 (fun l1 : Sized n => idx l1.1 i) :=
  fun l1 => ⟨[i], Nat.le_refl _, fun l1' h => by
    have h0 : l1'.1[i]? = l1.1[i]? := h i (List.mem_singleton.mpr rfl)
    show idx l1'.1 i = idx l1.1 i
    unfold idx
    rw [h0]⟩

theorem cacheOp_words (s : Progpow.MixRngState × List (List U32)) :
    DeterminedBy word cfg.laneCount (fun l1 : Sized n => Progpow.cacheOp cfg l1.1 s) := by
  refine mono (n := 0 + (0 + ((cfg.laneCount - 0) * (0 + (0 + (0 + (1 + 0)))) + 0))) ?_ (by omega)
  refine bind (const _) fun src => bind (const _) fun dst => ?_
  refine bind (forRange (f := fun l1 : Sized n => Progpow.cacheLane cfg l1.1 _ _ _) (fun l mix => ?_) 0 _ _) fun _ => const _
  exact bind (const _) fun row => bind (const _) fun x => bind (const _) fun off => bind (l1_word off.toNat) fun _ => const _

theorem opStep_words (i : Nat) (s : Progpow.MixRngState × List (List U32)) :
    DeterminedBy word (if i < cfg.roundCacheAccesses then cfg.laneCount else 0) (fun l1 : Sized n => Progpow.opStep cfg l1.1 i s) := by
  by_cases h : i < cfg.roundCacheAccesses
  · simp only [Progpow.opStep, if_pos h]
    exact bind (m := 0) (cacheOp_words cfg s) fun _ => const _
  · simp only [Progpow.opStep, if_neg h]
    exact const _

/-- the operations of a round: only the first `roundCacheAccesses` read the L1 cache -/
theorem ops_words (k : Nat) : ∀ (i : Nat) (s : Progpow.MixRngState × List (List U32)),
    DeterminedBy word ((cfg.roundCacheAccesses - i) * cfg.laneCount) (fun l1 : Sized n => loop k i s (Progpow.opStep cfg l1.1)) := by
  induction k with
  | zero => exact fun i s => mono (const _) (Nat.zero_le _)
  | succ k ih =>
    intro i s
    refine mono (n := (if i < cfg.roundCacheAccesses then cfg.laneCount else 0) + (cfg.roundCacheAccesses - (i + 1)) * cfg.laneCount)
      (bind (opStep_words cfg i s) fun s' => ih (i + 1) s') ?_
    by_cases h : i < cfg.roundCacheAccesses
    · rw [if_pos h, show cfg.roundCacheAccesses - i = cfg.roundCacheAccesses - (i + 1) + 1 by omega, Nat.succ_mul, Nat.add_comm]
    · rw [if_neg h, Nat.zero_add]
      exact Nat.mul_le_mul_right _ (by omega)

/-- … and `roundCacheAccesses` words of the L1 cache for every lane. -/
theorem progpow_words (height seed size : U64) (lookup : Progpow.Lookup) :
    DeterminedBy word (cfg.roundCount * (cfg.roundCacheAccesses * cfg.laneCount))
      (fun l1 : Sized n => Progpow.hash cfg height seed size lookup l1.1) := by
  refine mono (n := 0 + (0 + ((cfg.roundCount - 0) * (0 + (0 + (0 + (0 + (0 + (0 + (cfg.roundCacheAccesses * cfg.laneCount + 0))))))) + 0))) ?_
    (by simp only [Nat.zero_add, Nat.add_zero, Nat.sub_zero]; exact Nat.le_refl _)
  refine bind (const _) fun mix => bind (const _) fun number => ?_
  refine bind (forRange (f := fun l1 : Sized n => Progpow.hashRound cfg number size lookup l1.1) (fun i mix => ?_) 0 _ _) fun _ => const _
  refine bind (const _) fun state => bind (const _) fun lane => bind (const _) fun row => bind (const _) fun x => bind (const _) fun index => ?_
  refine bind (const _) fun it => ?_
  refine cond' (mono (n := 0 + (cfg.roundCacheAccesses * cfg.laneCount + 0)) (bind (const _) fun _ => ?_) (by omega)) ?_
  · exact bind (mono (ops_words cfg _ 0 _) (Nat.le_refl _)) fun _ => const _
  · exact bind (mono (ops_words cfg _ 0 _) (Nat.le_refl _)) fun _ => const _

end

theorem kawpow_items (hash : List Byte) (height nonce size : U64) (l1 : List U32) :
    DeterminedBy item 64 (fun lookup => Progpow.kawpow hash height nonce size lookup l1) := by
  refine mono (n := 0 + (64 + 0)) (bind (const _) fun p => ?_) (by decide)
  obtain ⟨seed, head⟩ := p
  show DeterminedBy item _ (fun lookup => Progpow.hash Progpow.kawpowCfg height head size lookup l1 >>= fun mixHash =>
    Progpow.kawpowFinalize seed mixHash >>= fun digest => pure (mixHash, digest))
  exact bind (progpow_items Progpow.kawpowCfg height head size l1) fun _ => const _

theorem kawpow_words {n : Nat} (hash : List Byte) (height nonce size : U64) (lookup : Progpow.Lookup) :
    DeterminedBy word 11264 (fun l1 : Sized n => Progpow.kawpow hash height nonce size lookup l1.1) := by
  refine mono (n := 0 + (64 * (11 * 16) + 0)) (bind (const _) fun p => ?_) (by decide)
  obtain ⟨seed, head⟩ := p
  show DeterminedBy word _ (fun l1 : Sized n => Progpow.hash Progpow.kawpowCfg height head size lookup l1.1 >>= fun mixHash =>
    Progpow.kawpowFinalize seed mixHash >>= fun digest => pure (mixHash, digest))
  exact bind (progpow_words Progpow.kawpowCfg height head size lookup) fun _ => const _

theorem firopow_items (hash : List Byte) (height nonce size : U64) (l1 : List U32) :
    DeterminedBy item 64 (fun lookup => Progpow.firopow hash height nonce size lookup l1) := by
  refine mono (n := 0 + (64 + 0)) (bind (const _) fun p => ?_) (by decide)
  obtain ⟨seed, head⟩ := p
  show DeterminedBy item _ (fun lookup => Progpow.hash Progpow.firopowCfg height head size lookup l1 >>= fun mixHash =>
    Progpow.firopowFinalize seed mixHash >>= fun digest => pure (mixHash, digest))
  exact bind (progpow_items Progpow.firopowCfg height head size l1) fun _ => const _

theorem firopow_words {n : Nat} (hash : List Byte) (height nonce size : U64) (lookup : Progpow.Lookup) :
    DeterminedBy word 11264 (fun l1 : Sized n => Progpow.firopow hash height nonce size lookup l1.1) := by
  refine mono (n := 0 + (64 * (11 * 16) + 0)) (bind (const _) fun p => ?_) (by decide)
  obtain ⟨seed, head⟩ := p
  show DeterminedBy word _ (fun l1 : Sized n => Progpow.hash Progpow.firopowCfg height head size lookup l1.1 >>= fun mixHash =>
    Progpow.firopowFinalize seed mixHash >>= fun digest => pure (mixHash, digest))
  exact bind (progpow_words Progpow.firopowCfg height head size lookup) fun _ => const _

/-! ## Dataset items -/

theorem keccak512At (buf : List Byte) (off : Nat) (data : List Byte) : DeterminedBy evaluate 1 (fun P => Dag.keccak512At P buf off data) :=
  cond' (mono (const _) (Nat.zero_le _)) (map (fun d => Except.ok (buf.take off ++ d ++ buf.drop (off + 64))) (keccak512 _))

theorem item_evals (parents : U32) (cache : List U32) (index : U32) :
    DeterminedBy evaluate 2 (fun P => Dag.generateDatasetItem P parents cache index) := by
  refine mono (n := 0 + (0 + (0 + (0 + (1 + (0 + (0 + (0 + 1)))))))) ?_ (by decide)
  refine bind (const _) fun _ => bind (const _) fun _ => bind (const _) fun _ => bind (const _) fun _ => bind (keccak512At _ _ _) fun _ => ?_
  exact bind (const _) fun _ => bind (const _) fun _ => bind (const _) fun _ => keccak512At _ _ _

/-- an item of `size` hashes: two evaluations each -/
theorem itemUint_evals (parents : U32) (cache : List U32) (index size : U32) :
    DeterminedBy evaluate (size.toNat * 2) (fun P => Dag.generateDatasetItemUint P parents cache index size) :=
  forRange (f := fun P => Dag.itemStep P parents cache index size) (fun _ _ => bind (m := 0) (item_evals parents cache _) fun _ => const _)
    0 size.toNat _

section

variable {n : Nat}

theorem fnvHash_words (mix : List U32) (off : Nat) :
    DeterminedBy word mix.length (fun c : Sized n => slc c.1 off c.1.length >>= Crypto.fnvHash mix) := by
  by_cases ho : off ≤ n
  · have e : ∀ c : Sized n, (slc c.1 off c.1.length >>= Crypto.fnvHash mix) = Go.forRange 0 mix.length mix (fun i mix => do
        let m ← idx mix i
        let d ← idx c.1 (off + i)
        upd mix i (Crypto.fnv1 m d)) := fun c => by
      have hs : slc c.1 off c.1.length = .ok (c.1.drop off) := by
        unfold slc
        rw [if_pos ⟨by rw [c.2]; exact ho, Nat.le_refl _⟩, List.take_length]
      rw [hs]
      show Go.forRange 0 mix.length mix (Crypto.fnvStep (c.1.drop off)) = _
      refine congrArg (Go.forRange 0 mix.length mix) (funext fun i => funext fun mix => ?_)
      unfold Crypto.fnvStep
      refine congrArg _ (funext fun m => ?_)
      unfold idx
      rw [List.getElem?_drop]
    simp only [e]
    refine mono (n := (mix.length - 0) * (0 + (1 + 0))) ?_ (by omega)
    refine forRange (f := fun (c : Sized n) i mix => idx mix i >>= fun m => idx c.1 (off + i) >>= fun d => upd mix i (Crypto.fnv1 m d))
      (fun i mix => ?_) 0 mix.length mix
    exact bind (const _) fun m => bind (l1_word _) fun _ => const _
  · have e : ∀ c : Sized n, (slc c.1 off c.1.length >>= Crypto.fnvHash mix) = .error (.panic .slice) := fun c => by
      have hs : slc c.1 off c.1.length = .error (.panic .slice) := by
        unfold slc
        rw [if_neg fun h => ho (by rw [← c.2]; exact h.1)]
      rw [hs]
      rfl
    simp only [e]
    exact mono (const _) (Nat.zero_le _)

theorem fnvHash_keeps {mix data mix' : List U32} (h : Crypto.fnvHash mix data = .ok mix') : mix'.length = mix.length := by
  refine forRange_keeps (fun l => l.length = mix.length) (fun i s s' hs hi => ?_) rfl h
  obtain ⟨_, _, hi⟩ := of_bind hi
  obtain ⟨_, _, hi⟩ := of_bind hi
  rw [upd_keeps hi, hs]

theorem item_words (P : Prims) (parents : U32) (index : U32) :
    DeterminedBy word (16 * (parents.toNat + 1)) (fun c : Sized n => Dag.generateDatasetItem P parents c.1 index) := by
  have e : ∀ c : Sized n, Dag.generateDatasetItem P parents c.1 index = (do
      let r ← umod index (BitVec.ofNat 32 (n / 16))
      let w ← idx c.1 (r * BitVec.ofNat 32 Dag.hashWords).toNat
      let mix ← putU32 .little (List.replicate 64 0) 0 (w ^^^ index)
      let mix ← Go.forRange 1 16 mix (Dag.seedStep c.1 index (BitVec.ofNat 32 (n / 16)))
      let mix ← Dag.keccak512At P mix 0 mix
      let intMix ← Go.forRange 0 16 (List.replicate 16 0) (Dag.intStep mix)
      let intMix ← Go.forRange 0 parents.toNat intMix (Dag.parentStep c.1 index (BitVec.ofNat 32 (n / 16)))
      let mix ← Go.forRange 0 intMix.length mix (Dag.flattenStep intMix)
      Dag.keccak512At P mix 0 mix) := fun c => by
    unfold Dag.generateDatasetItem
    rw [c.2]
    rfl
  simp only [e]
  refine mono (n := 0 + (1 + (0 + ((16 - 1) * (0 + (1 + 0)) + (0 + (0 + ((parents.toNat - 0) * 16 + 0))))))) ?_ (by omega)
  refine bind (const _) fun r => bind (l1_word _) fun w => bind (const _) fun mix => ?_
  refine bind (forRange (f := fun c : Sized n => Dag.seedStep c.1 index _) (fun i mix => ?_) 1 16 _) fun mix => ?_
  · exact bind (const _) fun r => bind (l1_word _) fun w => const _
  refine bind (const _) fun mix => bind_of (const _) fun _ intMix hi => ?_
  have hl : intMix.length = 16 := by
    refine forRange_keeps (fun l => l.length = 16) (fun i s s' hs hi => ?_) List.length_replicate hi
    obtain ⟨_, _, hi⟩ := of_bind hi
    obtain ⟨_, _, hi⟩ := of_bind hi
    rw [upd_keeps hi, hs]
  refine bind (forRange_of (fun l => l.length = 16) (f := fun c : Sized n => Dag.parentStep c.1 index _) (fun i m hm => ?_)
    (fun c i s s' hs h => ?_) 0 _ intMix hl) fun _ => const _
  · refine mono (n := 0 + (0 + m.length)) ?_ (by omega)
    exact bind (const _) fun _ => bind (const _) fun parent => fnvHash_words m _
  · obtain ⟨_, _, h⟩ := of_bind h
    obtain ⟨_, _, h⟩ := of_bind h
    obtain ⟨_, _, h⟩ := of_bind h
    rw [fnvHash_keeps h, hs]

theorem itemUint_words (P : Prims) (parents index size : U32) :
    DeterminedBy word (size.toNat * (16 * (parents.toNat + 1))) (fun c : Sized n => Dag.generateDatasetItemUint P parents c.1 index size) :=
  forRange (f := fun c : Sized n => Dag.itemStep P parents c.1 index size)
    (fun _ _ => bind (m := 0) (item_words P parents _) fun _ => const _) 0 size.toNat _

end

/-! ## The algorithms with lookup functions that evaluate hash functions -/

theorem hashimoto_evals (lookup : Prims → Ethash.Lookup) (m : Nat) (hl : ∀ i, DeterminedBy evaluate m (fun P => lookup P i))
    (hash : List Byte) (nonce size : U64) : DeterminedBy evaluate (128 * m + 2) (fun P => Ethash.hashimoto P hash nonce size (lookup P)) := by
  refine mono (n := 0 + (0 + (1 + (0 + (0 + ((64 - 0) * (0 + (0 + ((2 - 0) * (m + 0) + (0 + 0)))) + (0 + (0 + (0 + 1))))))))) ?_ (by omega)
  refine bind (const _) fun _ => bind (const _) fun data => ?_
  refine app (k := fun seed P => do
    let seedHead ← getU32 .little seed
    let mix ← Go.forRange 0 (Ethash.mixBytes / 4) (List.replicate (Ethash.mixBytes / 4) 0) (Ethash.mixStep seed)
    let temp := List.replicate mix.length 0
    let st ← Go.forRange 0 Ethash.hashimotoRounds (mix, temp)
      (Ethash.hashimotoStep (lookup P) ((size / BitVec.ofNat 64 Ethash.mixBytes).setWidth 32) seedHead)
    let mix ← Go.forRange 0 (st.1.length / 4) st.1 Ethash.compressStep
    let mix ← slc mix 0 (mix.length / 4)
    let digest ← Go.forRange 0 mix.length (List.replicate 32 0) (Ethash.digestStep mix)
    pure (digest, P.keccak256 (seed ++ digest))) (keccak512 data) fun seed => ?_
  refine bind (const _) fun seedHead => bind (const _) fun mix => ?_
  refine bind (forRange (f := fun P => Ethash.hashimotoStep (lookup P) _ seedHead) (fun i st => ?_) 0 64 _) fun _ => ?_
  · refine bind (const _) fun _ => bind (const _) fun parent => ?_
    refine bind (forRange (f := fun P => Ethash.lookupStep (lookup P) parent) (fun j temp => ?_) 0 2 _) fun _ =>
      bind (const _) fun _ => const _
    exact bind (hl _) fun _ => const _
  · refine bind (const _) fun _ => bind (const _) fun _ => bind (const _) fun digest => ?_
    exact map (fun d => pure (digest, d)) (keccak256 _)

theorem octopus_evals (lookup : Prims → Octopus.Lookup) (m : Nat) (hl : ∀ i, DeterminedBy evaluate m (fun P => lookup P i)) (fuel : Nat)
    (hash : List Byte) (nonce size : U64) : DeterminedBy evaluate (128 * m + 2) (fun P => Octopus.octopus P fuel hash nonce size (lookup P)) := by
  refine mono (n := 0 + (0 + (0 + (0 + (0 + (0 + (0 + (0 + (0 + (0 + ((0 + (0 + (0 + 1))) + (0 + (0 + (0 + (0 +
    ((32 - 0) * (0 + (0 + (0 + (4 - 0) * (m + 0)))) + (0 + (0 + (0 + 1))))))))))))))))))) ?_ (by omega)
  refine bind (const _) fun _ => bind (const _) fun _ => bind (const _) fun _ => bind (const _) fun _ => ?_
  refine bind (const _) fun _ => bind (const _) fun _ => bind (const _) fun _ => bind (const _) fun _ => ?_
  refine bind (const _) fun _ => bind (const _) fun r => bind ?_ fun half => ?_
  · refine bind (const _) fun _ => bind (const _) fun _ => bind (const _) fun _ => ?_
    exact map (fun d => pure d) (keccak512 _)
  refine bind (const _) fun _ => bind (const _) fun _ => bind (const _) fun firstVal => bind (const _) fun words => ?_
  refine bind (forRange (f := fun P => Octopus.accessStep (lookup P) firstVal _ _) (fun i mix => ?_) 0 32 _) fun _ => ?_
  · refine bind (const _) fun _ => bind (const _) fun _ => bind (const _) fun page => ?_
    refine forRange (f := fun P => Octopus.nodeStep (lookup P) page) (fun n mix => ?_) 0 4 _
    exact bind (hl _) fun _ => const _
  · refine bind (const _) fun _ => bind (const _) fun _ => bind (const _) fun front => ?_
    exact map (fun d => pure d) (keccak256 _)

/-! ## Seeds and caches -/

theorem keccak256At (buf data : List Byte) : DeterminedBy evaluate 1 (fun P => Dag.keccak256At P buf data) :=
  cond' (mono (const _) (Nat.zero_le _)) (map (fun d => Except.ok (d ++ buf.drop 32)) (keccak256 _))

theorem generateCache_evals (rounds : Int) (dest : List U32) (seed : List Byte) :
    DeterminedBy evaluate (((4 * dest.length + 63) / 64 - 1) + 1 + rounds.toNat * (4 * dest.length / 64))
      (fun P => Dag.generateCache P rounds dest seed) := by
  have hb : (Dag.byteView dest).length = 4 * dest.length := bytesLE_length dest
  refine mono (n := (1 + (((4 * dest.length + 64 - 1) / 64 - 1) * (0 + 1) + ((rounds.toNat - 0) * ((4 * dest.length / 64 - 0) *
    (0 + (0 + (0 + (0 + (0 + (0 + (1 + 0)))))))) + 0))) + 0) ?_ (by simp only [Nat.zero_add, Nat.add_zero, Nat.mul_one, Nat.sub_zero]; omega)
  refine bind (f := fun P => Dag.generateCacheBytes P rounds (Dag.byteView dest) seed) ?_ fun _ => const _
  unfold Dag.generateCacheBytes
  simp only [hb]
  refine bind (keccak512At _ _ _) fun cache => bind (forRange (f := Dag.chainStep) (fun k cache => ?_) 1 _ _) fun cache => ?_
  · exact bind (const _) fun _ => keccak512At _ _ _
  refine bind (forRange (f := fun P => Dag.memoPass P (4 * dest.length / Dag.hashBytes)) (fun k st => ?_) 0 _ _) fun _ => const _
  refine forRange (f := fun P => Dag.memoStep P (4 * dest.length / Dag.hashBytes)) (fun j st => ?_) 0 _ _
  refine bind (const _) fun _ => bind (const _) fun _ => bind (const _) fun _ => bind (const _) fun _ => bind (const _) fun _ =>
    bind (const _) fun _ => ?_
  exact bind (keccak512At _ _ _) fun _ => const _

theorem generateL1Cache_evals (parents : U32) (dest cache : List U32) :
    DeterminedBy evaluate (4 * dest.length / 64 * 2) (fun P => Dag.generateL1Cache P parents dest cache) := by
  have hb : (Dag.byteView dest).length = 4 * dest.length := bytesLE_length dest
  unfold Dag.generateL1Cache
  simp only [hb]
  refine mono (n := (4 * dest.length / 64 - 0) * (2 + 0) + 0) ?_ (by omega)
  refine bind (forRange (f := fun P => Dag.l1Step P parents cache) (fun k st => ?_) 0 _ _) fun _ => const _
  exact bind (item_evals _ _ _) fun _ => const _

theorem seedHash_evals (d : Dag.Config) (height : U64) :
    DeterminedBy evaluate (height.toNat / d.seedEpochLength.toNat) (fun P => Dag.seedHash P d height) := by
  refine cond' (mono (const _) (Nat.zero_le _)) ?_
  refine mono (n := 0 + height.toNat / d.seedEpochLength.toNat) ?_ (by omega)
  refine bind_of (const _) fun _ n hn => ?_
  refine mono (n := (n.toInt.toNat - 0) * 1) (forRange (f := Dag.seedHashStep) (fun _ _ => keccak256At _ _) 0 _ _) ?_
  have hn' : n = height / d.seedEpochLength := by
    unfold udiv at hn
    by_cases h0 : d.seedEpochLength = 0
    · rw [if_pos h0] at hn
      cases hn
    · rw [if_neg h0] at hn
      exact (Except.ok.inj hn).symm
  have : n.toInt.toNat ≤ n.toNat := by
    rw [BitVec.toInt_eq_toNat_cond]
    by_cases h : 2 * n.toNat < 2 ^ 64
    · rw [if_pos h]
      omega
    · rw [if_neg h]
      omega
  rw [← BitVec.toNat_udiv, ← hn']
  omega

end Verif.Proof.Work
