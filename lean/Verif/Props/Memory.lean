import Verif.Proof.InMem.Autolykos
import Verif.Proof.InMem.Beam
import Verif.Proof.InMem.Clients
import Verif.Proof.InMem.Equihash
import Verif.Proof.InMem.Small
import Verif.Props.AutolykosParams
import Verif.Props.Beam
import Verif.Props.Clients
import Verif.Props.Cuckoo
import Verif.Props.EaglesongParams
import Verif.Props.Equihash
import Verif.Props.Heavy

/-! # Memory: property C83

The other theorems are about models in which a slice is the list of its elements. Here slices are parts of arrays that may be shared, and `append`
may write behind a slice: for the arguments of the API, wherever they lie and whatever else shares their memory, the same results are found in new
memory, and nothing that existed before the call is written. -/

set_option autoImplicit false

namespace Verif.Props

open Go

attribute [local irreducible] Tables.ethashCacheSizes Tables.ethashDatasetSizes Tables.firopowDatasetSizes Tables.octopusCacheSizes
  Tables.octopusDatasetSizes

/-! ## What the notions give -/

/-- slices of memory that was not written have the elements they had -/
theorem C83_kept {t : Ty} {h h' : Heap} {s : Slice t} {xs : List t.Val} (k : Held h s xs) (u : Untouched h h') : Held h' s xs :=
  k.keep (untouched_iff.2 u)

/-- a new slice shares no array with a slice of the caller -/
theorem C83_apart {t : Ty} {h : Heap} {r s : Slice t} {xs : List t.Val} (k : Held h s xs) (n : New h r) : r.arr ≠ s.arr := by
  intro e
  have := k.arr
  unfold New at n
  omega

/-! ## The functions of the API -/

section
variable (P : Prims) {h : Heap}

/-- **C83** Autolykos2 `Compute`. -/
theorem C83_autolykos (c : Autolykos.Client) {msg : Slice .byte} {xs : List Byte} (km : Held h msg xs) (height nonce : U64) (o : Option (List Byte))
    (ho : c.compute P xs height nonce = .ok o) : DeliversOr (Autolykos.InMem.clientCompute P c msg height nonce) h o := by
  unfold Autolykos.Client.compute at ho
  unfold Autolykos.InMem.clientCompute
  rw [km.len] at ho
  by_cases hl : msg.len ≠ 32
  · rw [if_pos hl] at ho ⊢
    exact deliversOr_none ho
  rw [if_neg hl] at ho ⊢
  exact deliversOr_some (Autolykos.InMem.builds_compute P km c.k c.nBase nonce height) ho

/-- **C83** HeavyHash `Compute`. -/
theorem C83_heavyhash {F : Type} (N : Heavy.Num F) (fuel : Nat) {hash : Slice .byte} {xs : List Byte} (kh : Held h hash xs) (timestamp nonce : U64)
    (o : Option (List Byte)) (ho : Heavy.compute N P fuel xs timestamp nonce = .ok o) :
    DeliversOr (Heavy.InMem.compute N P fuel hash timestamp nonce) h o := by
  unfold Heavy.compute at ho
  unfold Heavy.InMem.compute
  rw [kh.len] at ho
  by_cases hl : hash.len ≠ 32
  · rw [if_pos hl] at ho ⊢
    exact deliversOr_none ho
  rw [if_neg hl] at ho ⊢
  exact deliversOr_some (Heavy.InMem.builds_heavyHash N P fuel kh timestamp nonce) ho

/-- **C83** Eaglesong `Compute`. -/
theorem C83_eaglesong (c : Eaglesong.Client) {input : Slice .byte} {xs : List Byte} (ki : Held h input xs) (d : List Byte)
    (hd : c.compute xs = .ok d) : Delivers (Eaglesong.InMem.eaglesong c.rounds c.capacity c.rate c.delim input) h d :=
  delivers_of_builds (Eaglesong.InMem.builds_eaglesong c.rounds c.capacity c.rate c.delim ki) hd

/-- **C83** Cuckoo Cycle and Cuckaroo `Verify`: the header and the nonces of the proof are only read. -/
theorem C83_cuckoo (c : Cuckoo.Client) (fuel : Nat) {header : Slice .byte} {xs : List Byte} {sols : Slice .dword} {es : List U64}
    (kh : Held h header xs) (ks : Held h sols es) (b : Bool × Option Cuckoo.Err) (hb : Cuckoo.verify P c fuel xs es = .ok b) :
    Reports (Cuckoo.InMem.verify P c fuel header sols) h b :=
  reports_of_runs (Cuckoo.InMem.runs_verify P c fuel kh ks) hb

/-- **C83** Equihash `Verify`: `personal` is the slice that the client shares between its calls. -/
theorem C83_equihash (c : Equihash.Client) (fuel : Nat) {personal header soln : Slice .byte} {hs ss : List Byte}
    (kp : Held h personal c.personal) (kh : Held h header hs) (ks : Held h soln ss) (b : Bool × Option Equihash.Err)
    (hb : c.verify P fuel hs ss = .ok b) : Reports (Equihash.InMem.clientVerify P fuel c.n c.k personal c.twist header soln) h b :=
  reports_of_runs (Equihash.InMem.runs_verify P fuel _ _ kp kh ks c.twist) hb

/-- **C83** BeamHash III `Verify`: the three masks are variables of the package, shared by all calls. -/
theorem C83_beam (c : Beam.Client) (fuel : Nat) {G : Beam.InMem.Globals} (k1 : Held h G.indexMask [Beam.indexMask])
    (k2 : Held h G.collisionMask [Beam.collisionMask]) (k3 : Held h G.mixMask [Beam.mixMask]) {personal header soln : Slice .byte}
    {hs ss : List Byte} (kp : Held h personal c.personal) (kh : Held h header hs) (ks : Held h soln ss) (b : Bool × Option Beam.Err)
    (hb : c.verify P fuel hs ss = .ok b) : Reports (Beam.InMem.clientVerify P fuel G personal header soln) h b := by
  unfold Beam.Client.verify at hb
  unfold Beam.InMem.clientVerify
  rw [kh.len, ks.len] at hb
  by_cases h1 : header.len ≠ 40
  · rw [if_pos h1] at hb ⊢
    obtain rfl := Except.ok.inj hb
    exact ⟨h, rfl, untouched_iff.1 (Frame.refl h Go.none)⟩
  rw [if_neg h1] at hb ⊢
  by_cases h2 : soln.len ≠ 104
  · rw [if_pos h2] at hb ⊢
    obtain rfl := Except.ok.inj hb
    exact ⟨h, rfl, untouched_iff.1 (Frame.refl h Go.none)⟩
  rw [if_neg h2] at hb ⊢
  exact reports_of_runs (Beam.InMem.runs_verify P fuel ⟨k1, k2, k3⟩ kp kh ks) hb

end

/-! ### The DAG-based clients

`GetCache` may allocate; the slices that it returns are those that all callers share. -/

section
variable (P : Prims) (fuel : Nat) (d : Dag.Config) {h : Heap} {getCache : Clients.InMem.GetCache} {g : U64 → Go Dag.Loaded}
  (hg : Clients.InMem.Gets h getCache g) {hash : Slice .byte} {xs : List Byte} (kh : Held h hash xs) (height nonce : U64)
include hg kh

/-- **C83** Ethash `Compute`: the digest and the mix digest do not share memory with the arguments, with the cache, or with each other. -/
theorem C83_ethash (o : Option (List Byte × List Byte)) (ho : Clients.ethash P fuel d g xs height nonce = .ok o) :
    DeliversTwo (Clients.InMem.ethash P fuel d getCache hash height nonce) h o :=
  Clients.InMem.deliversTwo_ethash P fuel d hg kh height nonce ho

theorem C83_kawpow (o : Option (List Byte × List Byte)) (ho : Clients.kawpow P fuel d g xs height nonce = .ok o) :
    DeliversTwo (Clients.InMem.kawpow P fuel d getCache hash height nonce) h o :=
  Clients.InMem.deliversTwo_kawpow P fuel d hg kh height nonce ho

theorem C83_firopow (o : Option (List Byte × List Byte)) (ho : Clients.firopow P fuel d g xs height nonce = .ok o) :
    DeliversTwo (Clients.InMem.firopow P fuel d getCache hash height nonce) h o :=
  Clients.InMem.deliversTwo_firopow P fuel d hg kh height nonce ho

theorem C83_octopus (o : Option (List Byte)) (ho : Clients.octopus P fuel d g xs height nonce = .ok o) :
    DeliversOr (Clients.InMem.octopus P fuel d getCache hash height nonce) h o :=
  Clients.InMem.deliversOr_octopus P fuel d hg kh height nonce ho

end

/-- **C83** ProgPoW 0.9.4 `compute`, which no client calls. -/
theorem C83_progpow094 (P : Prims) (parents : U32) {h : Heap} {hash : Slice .byte} {xs : List Byte} (kh : Held h hash xs) {cache l1 : Slice .word}
    {cs ls : List U32} (kc : Held h cache cs) (kl : Held h l1 ls) (height nonce size : U64) (r : List Byte × List Byte)
    (hr : Progpow.progpow094 xs height nonce size (Dag.lookup2048 P parents cs) ls = .ok r) :
    DeliversTwo (do let r ← Progpow.InMem.progpow094 hash height nonce size (Dag.InMem.lookup2048 P parents cache) l1; pure (some r)) h (some r) := by
  obtain ⟨a, h', e, F, a1, a2, a3, a4, a5⟩ :=
    Progpow.InMem.runs_progpow094 kh height nonce size (Ethash.InMem.like_lookup2048 P parents kc) kl r hr
  refine ⟨a.1, a.2, h', ?_, untouched_iff.1 F, a2, a4, a5, a1, a3⟩
  rw [Mem.bind_ok e]
  rfl

/-! ## Concrete memory

One array of bytes with 33 zeros before the argument, the argument, and spare cells after it that belong to somebody else. -/

/-- an argument of the API in the middle of an array -/
def somewhere (xs : List Byte) (words : List U32) : Heap where
  store := fun t => match t with
    | .byte => [[7, 8], List.replicate 33 0 ++ xs ++ [1, 2, 3]]
    | .word => [[], words ++ [9]]
    | .dword => []
    | .big => [[Beam.indexMask], [Beam.collisionMask], [Beam.mixMask]]
  spare := fun t i => List.replicate i t.zero

theorem somewhere_held (xs : List Byte) (ws : List U32) : Held (somewhere xs ws) (⟨1, 33, xs.length, xs.length + 2⟩ : Slice .byte) xs := by
  refine ⟨_, rfl, by simp, ?_, ?_⟩
  · show 33 + (xs.length + 2) ≤ _
    simp
    omega
  · show ((List.replicate 33 0 ++ xs ++ [1, 2, 3]).drop 33).take xs.length = xs
    rw [List.append_assoc, List.drop_left' (by simp), List.take_left]

theorem somewhere_words (xs : List Byte) (ws : List U32) : Held (somewhere xs ws) (⟨1, 0, ws.length, ws.length + 1⟩ : Slice .word) ws := by
  refine ⟨_, rfl, by simp, ?_, ?_⟩
  · show 0 + (ws.length + 1) ≤ (ws ++ [9]).length
    simp
  · show ((ws ++ [9]).drop 0).take ws.length = ws
    simp

/-- Ergo's client with any message, height and nonce: the capacity allows `append` to write behind the message, and it does not -/
example (P : Prims) (msg : List Byte) (hm : msg.length = 32) (height nonce : U64) :
    ∃ d, d.length = 32 ∧
      DeliversOr (Autolykos.InMem.clientCompute P Autolykos.newErgo ⟨1, 33, msg.length, msg.length + 2⟩ height nonce) (somewhere msg []) (some d) := by
  obtain ⟨d, e, hd⟩ := (C75_returns_iff P 32 26 msg hm height nonce).mpr ⟨by decide, Or.inr ⟨by decide, Or.inr (by decide)⟩⟩
  exact ⟨d, hd, C83_autolykos P Autolykos.newErgo (somewhere_held msg []) height nonce _ e⟩

/-- Nervos' client -/
example (input : List Byte) (hl : input.length < 2 ^ 59) : Delivers (Eaglesong.InMem.eaglesong 43 32 256 6 ⟨1, 33, input.length, input.length + 2⟩) (somewhere input [])
    (Spec.Eaglesong.digest 43 0x06 input) :=
  C83_eaglesong Eaglesong.newNervos (somewhere_held input []) _ (C57_compute input hl).1

/-- Ethereum's client: the cache is shared -/
example (P : Prims) (fuel : Nat) (hf : 2 ^ 63 < fuel) (w : List U32)
    (hw : Spec.IsCache P.keccak256 P.keccak512 .eth 517 w) (hash : List Byte) (hh : hash.length = 32) (nonce : U64) :
    ∃ r, Spec.IsEthash P.keccak256 P.keccak512 .eth hash 15537393 nonce r ∧
      DeliversTwo (Clients.InMem.ethash P fuel (Dag.ethereum "") (fun _ => pure (⟨1, 0, w.length, w.length + 1⟩, ⟨1, 0, 0, 0⟩))
        ⟨1, 33, hash.length, hash.length + 2⟩ 15537393 nonce) (somewhere hash w) (some r) := by
  have hm : (Dag.ethereum "", Spec.Chain.eth) ∈ clients "" := by simp [clients]
  have hs : served .eth ((15537393 : U64).toNat / Spec.Chain.eth.epochLength) := ⟨⟨Or.inl (by decide), by decide⟩, by decide, by decide⟩
  obtain ⟨r, e, hr⟩ := C64_ethash_of P hm 15537393 hs fuel hf (fun _ => .ok ⟨w, Spec.l1Of P.keccak512 .eth w⟩) (fun e he => ⟨w, by
    rw [he]; exact hw, rfl⟩) hash hh nonce
  refine ⟨r, hr, C83_ethash P fuel _ (fun e b hb => ?_) (somewhere_held hash w) _ _ _ e⟩
  obtain rfl := Except.ok.inj hb
  exact ⟨_, _, _, rfl, fun _ _ _ h => h, somewhere_words hash w, ⟨_, rfl, Nat.le_refl _, by simp, by simp; rfl⟩⟩

/-- Beam's client: header and solution overlap in memory -/
example (P : Prims) (soln : List Byte) (hs : soln.length = 104) : ∃ b, Reports (Beam.InMem.clientVerify P 6 ⟨⟨0, 0, 1, 1⟩, ⟨1, 0, 1, 1⟩, ⟨2, 0, 1, 1⟩⟩
    ⟨0, 0, 2, 2⟩ ⟨1, 33, 40, 50⟩ ⟨1, 33, soln.length, soln.length + 2⟩) (somewhere soln []) b := by
  obtain ⟨b, e⟩ := C17_total P ⟨150, 5, [7, 8]⟩ (by decide) (soln.take 40) soln 6 (Nat.le_refl _)
  refine ⟨b, C83_beam P ⟨150, 5, [7, 8]⟩ 6 ⟨_, rfl, ?_⟩ ⟨_, rfl, ?_⟩ ⟨_, rfl, ?_⟩ ⟨_, rfl, ?_⟩ ⟨_, rfl, ?_⟩ (somewhere_held soln []) b e⟩
  · exact ⟨Nat.le_refl _, Nat.le_refl _, rfl⟩
  · exact ⟨Nat.le_refl _, Nat.le_refl _, rfl⟩
  · exact ⟨Nat.le_refl _, Nat.le_refl _, rfl⟩
  · exact ⟨Nat.le_refl _, Nat.le_refl _, rfl⟩
  · refine ⟨by decide, ?_, ?_⟩
    · simp [hs]
    · show ((List.replicate 33 0 ++ soln ++ [1, 2, 3]).drop 33).take 40 = soln.take 40
      rw [List.append_assoc, List.drop_left' (by simp), List.take_append_of_le_length (by omega)]

/-! ## What depends on the capacity

The converse does not hold: `genIndexes` (autolykos2.go:50-60) slices `extendedHash[i:i+4]` for `i < k`, which may reach beyond the 64 bytes up to
the capacity that `append` chose. For `k ≤ 61` it does not matter (`C83_autolykos` and C75). For `k = 62` the model without memory panics, and
one with a spare byte reads that byte. -/

/-- memory in which the next array made by `append` has one spare cell -/
def spareOne (x : Byte) : Heap where
  store := fun t => match t with
    | .byte => [[]]
    | _ => []
  spare := fun t _ => match t with
    | .byte => [x]
    | _ => []

theorem ok_of_toOption {ε α : Type} {x : Except ε α} {a : α} (h : x.toOption = some a) : x = .ok a := by
  cases x with
  | error p => cases h
  | ok b => exact congrArg Except.ok (Option.some.inj h)

/-- **C83** With spare capacity the same call returns, and what it returns is not determined by the memory of the caller: there are two memories with
the same arrays, in which the seed has the same elements, that give different indexes. -/
theorem C83_spare : ∃ h h' : Heap, h.store = h'.store ∧ ∃ seed : Slice .byte, Held h seed [] ∧ Held h' seed [] ∧
    Autolykos.genIndexes Prims.zero [] 62 1000 = .error (.panic .slice) ∧
    ∃ xs ys, Prod.fst <$> (do let s ← Autolykos.InMem.genIndexes Prims.zero seed 62 1000; Mem.contents s) h = .ok xs ∧
      Prod.fst <$> (do let s ← Autolykos.InMem.genIndexes Prims.zero seed 62 1000; Mem.contents s) h' = .ok ys ∧ xs ≠ ys := by
  refine ⟨spareOne 1, spareOne 2, rfl, ⟨0, 0, 0, 0⟩, ⟨_, rfl, Nat.le_refl _, Nat.le_refl _, rfl⟩, ⟨_, rfl, Nat.le_refl _, Nat.le_refl _, rfl⟩, ?_,
    List.replicate 61 0 ++ [1], List.replicate 61 0 ++ [2], ok_of_toOption ?_, ok_of_toOption ?_, ?_⟩
  all_goals decide +kernel

end Verif.Props
