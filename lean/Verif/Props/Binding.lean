import Verif.Props.Seed
import Verif.Props.Clients

/-! # What the digests bind: property C71

No assumption is made on the cache: the statements also hold for a client whose cache files are wrong. -/

set_option autoImplicit false

namespace Verif.Props

open Go Dag

attribute [local irreducible] Tables.ethashCacheSizes Tables.ethashDatasetSizes Tables.firopowDatasetSizes Tables.octopusCacheSizes
  Tables.octopusDatasetSizes

/-- `x` and `y` are different inputs of the same value. The statements name them: that there are some says nothing, since it holds for every
function with values of one length. -/
def Collision (H : List Byte → List Byte) (x y : List Byte) : Prop := x ≠ y ∧ H x = H y

theorem bind_ok_inv {α β : Type} {x : Go α} {f : α → Go β} {r : β} (h : (x >>= f) = .ok r) : ∃ a, x = .ok a ∧ f a = .ok r := by
  cases x with
  | error e => cases h
  | ok a => exact ⟨a, rfl, h⟩

theorem putU32_length {l l' : List Byte} {o : Nat} {v : U32} (h : putU32 .little l o v = .ok l') : l'.length = l.length := by
  by_cases h1 : l.length < o
  · rw [putU32, if_pos h1] at h
    cases h
  · rw [putU32, if_neg h1] at h
    by_cases h2 : l.length < o + 4
    · rw [if_pos h2] at h
      cases h
    · rw [if_neg h2] at h
      injection h with h
      have e : (bytesOf .little 4 v).length = 4 := bytesOf_length _ _ _
      rw [← h]
      simp [e]
      omega

theorem loop_ok_inv {σ : Type} {f : Nat → σ → Go σ} (I : σ → Prop) (hf : ∀ i s s', I s → f i s = .ok s' → I s') :
    ∀ (n i : Nat) (s s' : σ), I s → loop n i s f = .ok s' → I s' := by
  intro n
  induction n with
  | zero =>
    intro i s s' h0 h
    injection h with h
    exact h ▸ h0
  | succ n ih =>
    intro i s s' h0 h
    obtain ⟨t, h1, h2⟩ := bind_ok_inv h
    exact ih _ _ _ (hf _ _ _ h0 h1) h2

theorem digestStep_length {mix : List U32} {i : Nat} {l l' : List Byte} (h : Ethash.digestStep mix i l = .ok l') :
    l'.length = l.length := by
  obtain ⟨v, _, h⟩ := bind_ok_inv h
  exact putU32_length h

/-- whatever the look-up does: a result of `hashimoto` is a mix of 32 bytes and the hash of the seed and the mix -/
theorem hashimoto_form {P : Prims} {hash : List Byte} (hh : hash.length = 32) {nonce size : U64} {L : Ethash.Lookup} {mix digest : List Byte}
    (h : Ethash.hashimoto P hash nonce size L = .ok (mix, digest)) :
    mix.length = 32 ∧ digest = P.keccak256 (P.keccak512 (hash ++ Spec.leEncode 8 nonce.toNat) ++ mix) := by
  rw [Ethash.hashimoto] at h
  simp only at h
  rw [← bind_assoc, Ethash.seed_eq hash hh nonce, ok_bind] at h
  obtain ⟨_, _, h⟩ := bind_ok_inv h
  obtain ⟨_, _, h⟩ := bind_ok_inv h
  obtain ⟨_, _, h⟩ := bind_ok_inv h
  obtain ⟨_, _, h⟩ := bind_ok_inv h
  obtain ⟨m, _, h⟩ := bind_ok_inv h
  obtain ⟨d, h1, h⟩ := bind_ok_inv h
  injection h with h
  injection h with ha hb
  subst ha
  refine ⟨?_, hb.symm⟩
  have := loop_ok_inv (fun l : List Byte => l.length = 32) (fun i s s' hs hi => (digestStep_length hi).trans hs) _ _ _ _ (by simp) h1
  exact this

theorem nonce_inj {a b : U64} (h : Spec.leEncode 8 a.toNat = Spec.leEncode 8 b.toNat) : a = b := by
  have := congrArg leNat h
  rw [Spec.leNat_leEncode, Spec.leNat_leEncode] at this
  apply BitVec.eq_of_toNat_eq
  have := a.isLt
  have := b.isLt
  omega

/-- **C71** Every result of the Ethash client is a mix of 32 bytes and a digest that anybody can compute from the hash, the nonce and
the mix without the dataset. -/
theorem C71_ethash_quick (P : Prims) (fuel : Nat) (d : Config) (getCache : U64 → Go Loaded) (hash : List Byte) (height nonce : U64)
    (mix digest : List Byte) (h : Clients.ethash P fuel d getCache hash height nonce = .ok (some (mix, digest))) :
    mix.length = 32 ∧ digest = P.keccak256 (P.keccak512 (hash ++ Spec.leEncode 8 nonce.toNat) ++ mix) := by
  by_cases hh : hash.length = 32
  · rw [Clients.ethash, if_neg (by simpa using hh)] at h
    obtain ⟨⟨size, cache⟩, _, h⟩ := bind_ok_inv h
    obtain ⟨⟨m, g⟩, h1, h⟩ := bind_ok_inv h
    injection h with h
    injection h with h
    injection h with ha hb
    subst ha
    subst hb
    exact hashimoto_form hh h1
  · rw [Clients.ethash, if_pos hh] at h
    injection h with h
    cases h

/-- **C71** Two results of the Ethash client with the same digest, for whatever heights and caches, are for the same hash and nonce and
have the same mix, or what they hash first is a collision of Keccak-512, or what they hash last one of Keccak-256. -/
theorem C71_ethash_binds (P : Prims) (fuel fuel' : Nat) (d d' : Config) (getCache getCache' : U64 → Go Loaded) (hash hash' : List Byte)
    (height height' nonce nonce' : U64) (mix mix' digest : List Byte)
    (h : Clients.ethash P fuel d getCache hash height nonce = .ok (some (mix, digest)))
    (h' : Clients.ethash P fuel' d' getCache' hash' height' nonce' = .ok (some (mix', digest))) :
    (hash = hash' ∧ nonce = nonce' ∧ mix = mix') ∨
      Collision P.keccak256 (P.keccak512 (hash ++ Spec.leEncode 8 nonce.toNat) ++ mix) (P.keccak512 (hash' ++ Spec.leEncode 8 nonce'.toNat) ++ mix') ∨
      Collision P.keccak512 (hash ++ Spec.leEncode 8 nonce.toNat) (hash' ++ Spec.leEncode 8 nonce'.toNat) := by
  have hl : hash.length = 32 := by
    by_contra hh
    rw [Clients.ethash, if_pos hh] at h
    injection h with h
    cases h
  have hl' : hash'.length = 32 := by
    by_contra hh
    rw [Clients.ethash, if_pos hh] at h'
    injection h' with h'
    cases h'
  obtain ⟨_, e1⟩ := C71_ethash_quick _ _ _ _ _ _ _ _ _ h
  obtain ⟨_, e2⟩ := C71_ethash_quick _ _ _ _ _ _ _ _ _ h'
  by_cases hs : P.keccak512 (hash ++ Spec.leEncode 8 nonce.toNat) ++ mix = P.keccak512 (hash' ++ Spec.leEncode 8 nonce'.toNat) ++ mix'
  · obtain ⟨h1, h2⟩ := List.append_inj hs (by rw [P.keccak512_length, P.keccak512_length])
    by_cases hn : hash ++ Spec.leEncode 8 nonce.toNat = hash' ++ Spec.leEncode 8 nonce'.toNat
    · obtain ⟨h3, h4⟩ := List.append_inj hn (by omega)
      exact .inl ⟨h3, nonce_inj h4, h2⟩
    · exact .inr (.inr ⟨hn, h1⟩)
  · exact .inr (.inl ⟨hs, e1.symm.trans e2⟩)

/-- octopus.go:137-180: what the last Keccak-256 gets -/
def lastInput (halfMix : List Byte) (resBuf : List U32) (datasetSize : U64) (lookup : Octopus.Lookup) : Go (List Byte) := do
  let mix ← forRange 0 4 [] (Octopus.repeatStep halfMix)
  let pageSize := 4 * Octopus.mixWords
  let numFullPages : U32 := (datasetSize / BitVec.ofNat 64 pageSize).setWidth 32
  let head ← slc halfMix 0 4
  let firstVal ← getU32 .little head
  let mixUWords ← Convutil.bytesToUint32Array mix .little
  let mixUWords ← forRange 0 Octopus.powAccesses mixUWords (Octopus.accessStep lookup firstVal numFullPages resBuf)
  let compressWords ← forRange 0 8 (List.replicate 8 0) (Octopus.compressStep mixUWords)
  let compressBytes ← Convutil.uint32ArrayToBytes compressWords .little
  let front ← slc mix 0 Octopus.nodeBytes
  return front ++ compressBytes

theorem mixing_last (P : Prims) (half : List Byte) (rb : List U32) (size : U64) (L : Octopus.Lookup) :
    Octopus.mixing P half rb size L = (lastInput half rb size L >>= fun y => .ok (P.keccak256 y)) := by
  unfold Octopus.mixing lastInput
  simp only [bind_assoc, pure_bind]
  rfl

theorem mixing_form {P : Prims} {half : List Byte} (hh : half.length = 64) {rb : List U32} {size : U64} {L : Octopus.Lookup}
    {digest : List Byte} (h : Octopus.mixing P half rb size L = .ok digest) :
    ∃ c, lastInput half rb size L = .ok (half ++ c) ∧ digest = P.keccak256 (half ++ c) := by
  rw [mixing_last] at h
  obtain ⟨y, hy, h⟩ := bind_ok_inv h
  injection h with hd
  have h := hy
  rw [lastInput, Octopus.repeat_loop, ok_bind] at h
  simp only at h
  obtain ⟨_, _, h⟩ := bind_ok_inv h
  obtain ⟨_, _, h⟩ := bind_ok_inv h
  obtain ⟨_, _, h⟩ := bind_ok_inv h
  obtain ⟨_, _, h⟩ := bind_ok_inv h
  obtain ⟨_, _, h⟩ := bind_ok_inv h
  obtain ⟨c, _, h⟩ := bind_ok_inv h
  rw [show Octopus.nodeBytes = 64 from rfl, slc_ok _ _ _ (by omega) (by simp [hh]), ok_bind, List.drop_zero, List.append_assoc,
    List.append_assoc, List.take_append_of_le_length (by omega), List.take_of_length_le (by omega)] at h
  injection h with h
  refine ⟨c, ?_, ?_⟩
  · rw [h]; exact hy
  · rw [h]; exact hd.symm

open Spec.Octopus (IsC generator word values fold) in
/-- what a computation of the Octopus client hashes: `x` with Keccak-512 before the dataset is read, and `y` with Keccak-256 at the end -/
def OctopusInputs (P : Prims) (fuel : Nat) (d : Config) (getCache : U64 → Go Loaded) (hash : List Byte) (height nonce : U64) (x y : List Byte) : Prop :=
  ∃ c vs size cache, IsC (generator (word hash 0).toNat) (generator (word hash 1).toNat) (word hash 2).toNat c ∧
    vs = values hash (generator (word hash 0).toNat) (generator (word hash 1).toNat) c (generator (word hash 3).toNat) nonce.toNat ∧
    x = hash ++ Spec.leEncode 8 (fold vs).toNat ∧ Clients.prepare fuel d getCache height = .ok (size, cache) ∧
    lastInput (P.keccak512 x) (vs.map (BitVec.ofNat 32)) size (lookup512 P d.datasetParents cache.cache) = .ok y

/-- **C71** they are determined by the computation -/
theorem C71_octopus_inputs {P : Prims} {fuel : Nat} {d : Config} {getCache : U64 → Go Loaded} {hash : List Byte} {height nonce : U64}
    {x y x' y' : List Byte} (h : OctopusInputs P fuel d getCache hash height nonce x y) (h' : OctopusInputs P fuel d getCache hash height nonce x' y') :
    x = x' ∧ y = y' := by
  obtain ⟨c, vs, size, cache, h1, h2, h3, h4, h5⟩ := h
  obtain ⟨c', vs', size', cache', h1', h2', h3', h4', h5'⟩ := h'
  rw [C20_c_unique _ _ _ _ _ h1 h1', ← h2'] at h2
  rw [h2, ← h3'] at h3
  rw [h4] at h4'
  injection h4' with h4'
  injection h4' with ha hb
  subst ha hb
  rw [h2, h3] at h5
  rw [h5] at h5'
  injection h5' with h5'
  exact ⟨h3, h5'⟩

/-- **C71** Two results of the Octopus client with the same digest, for whatever heights, nonces and caches, are for the same hash, or
what they hash first is a collision of Keccak-512, or what they hash last one of Keccak-256. -/
theorem C71_octopus_binds (P : Prims) (fuel fuel' : Nat) (hf : 64 < fuel) (hf' : 64 < fuel') (d d' : Config)
    (getCache getCache' : U64 → Go Loaded) (hash hash' : List Byte) (height height' nonce nonce' : U64) (digest : List Byte)
    (h : Clients.octopus P fuel d getCache hash height nonce = .ok (some digest))
    (h' : Clients.octopus P fuel' d' getCache' hash' height' nonce' = .ok (some digest)) :
    ∃ x y x' y', OctopusInputs P fuel d getCache hash height nonce x y ∧ OctopusInputs P fuel' d' getCache' hash' height' nonce' x' y' ∧
      (hash = hash' ∨ Collision P.keccak256 y y' ∨ Collision P.keccak512 x x') := by
  have key : ∀ (fuel : Nat) (d : Config) (getCache : U64 → Go Loaded) (hash : List Byte) (height nonce : U64), 64 < fuel →
      Clients.octopus P fuel d getCache hash height nonce = .ok (some digest) →
      hash.length = 32 ∧ ∃ (r : Nat) (c : List Byte),
        OctopusInputs P fuel d getCache hash height nonce (hash ++ Spec.leEncode 8 r) (P.keccak512 (hash ++ Spec.leEncode 8 r) ++ c) ∧
        digest = P.keccak256 (P.keccak512 (hash ++ Spec.leEncode 8 r) ++ c) := by
    intro fuel d getCache hash height nonce hf h
    by_cases hh : hash.length = 32
    · refine ⟨hh, ?_⟩
      rw [Clients.octopus, if_neg (by simpa using hh)] at h
      obtain ⟨⟨size, cache⟩, hp, h⟩ := bind_ok_inv h
      obtain ⟨g, h1, h⟩ := bind_ok_inv h
      injection h with h
      injection h with h
      subst h
      obtain ⟨cc, hcc, vs, hvs, e⟩ := Octopus.octopus_reduce P fuel hf hash hh nonce size (lookup512 P d.datasetParents cache.cache)
      rw [e] at h1
      obtain ⟨c, hl, hc⟩ := mixing_form (P.keccak512_length _) h1
      exact ⟨_, c, ⟨cc, vs, size, cache, hcc, hvs, rfl, hp, hl⟩, hc⟩
    · rw [Clients.octopus, if_pos hh] at h
      injection h with h
      cases h
  obtain ⟨hl, r, c, i1, e1⟩ := key _ _ _ _ _ _ hf h
  obtain ⟨hl', r', c', i2, e2⟩ := key _ _ _ _ _ _ hf' h'
  refine ⟨_, _, _, _, i1, i2, ?_⟩
  by_cases hs : P.keccak512 (hash ++ Spec.leEncode 8 r) ++ c = P.keccak512 (hash' ++ Spec.leEncode 8 r') ++ c'
  · obtain ⟨h1, h2⟩ := List.append_inj hs (by rw [P.keccak512_length, P.keccak512_length])
    by_cases hn : hash ++ Spec.leEncode 8 r = hash' ++ Spec.leEncode 8 r'
    · exact .inl (List.append_inj hn (by omega)).1
    · exact .inr (.inr ⟨hn, h1⟩)
  · exact .inr (.inl ⟨hs, e1.symm.trans e2⟩)

theorem upd_length {α : Type} {l l' : List α} {i : Nat} {v : α} (h : upd l i v = .ok l') : l'.length = l.length := by
  by_cases hi : i < l.length
  · rw [upd, if_pos hi] at h
    injection h with h
    rw [← h, List.length_set]
  · rw [upd, if_neg hi] at h
    cases h

theorem progpow_form {cfg : Progpow.Config} {height seed size : U64} {L : Progpow.Lookup} {l1 : List U32} {mix : List Byte}
    (h : Progpow.hash cfg height seed size L l1 = .ok mix) : mix.length = 32 := by
  rw [Progpow.hash] at h
  obtain ⟨_, _, h⟩ := bind_ok_inv h
  obtain ⟨_, _, h⟩ := bind_ok_inv h
  obtain ⟨_, _, h⟩ := bind_ok_inv h
  obtain ⟨_, _, h⟩ := bind_ok_inv h
  obtain ⟨m, h1, h⟩ := bind_ok_inv h
  have hm : m.length = 8 := loop_ok_inv (fun l : List U32 => l.length = 8) (fun i s s' hs hi => by
    obtain ⟨_, _, hi⟩ := bind_ok_inv hi
    obtain ⟨_, _, hi⟩ := bind_ok_inv hi
    exact (upd_length hi).trans hs) _ _ _ _ (by simp) h1
  rw [Convutil.uint32ArrayToBytes_eq] at h
  injection h with h
  rw [← h]
  exact (bytesLE_length m).trans (by omega)

/-- the digest of the ProgPoW family for a header hash, a nonce and a mix: two applications of Keccak-f[800] -/
def quickDigest (v : Spec.Progpow.Variant) (hash : List Byte) (nonce : Nat) (mix : List Byte) : List Byte :=
  Spec.Ethash.bytes ((Spec.Keccak.f800 (Spec.Progpow.absorbFinal (Spec.Keccak.f800 (Spec.Progpow.absorbSeed hash nonce v.pad1))
    (Spec.Ethash.words mix) v.pad2)).take 8)

theorem quick_form {init : Go (List U32 × U64)} {fin : List U32 → List Byte → Go (List Byte)} {seed : List U32}
    {pad : List U32} (hI : ∃ head : U64, init = .ok (seed, head) )
    (hF : ∀ m : List U32, m.length = 8 → fin seed (Spec.Ethash.bytes m) =
      .ok (Spec.Ethash.bytes ((Spec.Keccak.f800 (Spec.Progpow.absorbFinal seed m pad)).take 8)))
    {s : List U32} {a : U64} {mix g : List Byte} (hm : mix.length = 32) (h2 : init = .ok (s, a)) (h4 : fin s mix = .ok g) :
    g = Spec.Ethash.bytes ((Spec.Keccak.f800 (Spec.Progpow.absorbFinal seed (Spec.Ethash.words mix) pad)).take 8) := by
  obtain ⟨head, hI⟩ := hI
  have e := (Prod.mk.inj (Except.ok.inj (h2.symm.trans hI))).1
  subst e
  have e2 := hF (Spec.Ethash.words mix) (by rw [words_eq, wordView_length, hm])
  rw [bytes_eq, words_eq, bytesLE_wordView _ (by omega), h4] at e2
  rw [words_eq]
  exact Except.ok.inj e2

/-- **C71** Every result of the KAWPOW client is a mix of 32 bytes and a digest that anybody can compute from the hash, the nonce and
the mix without the dataset. -/
theorem C71_kawpow_quick (P : Prims) (fuel : Nat) (d : Config) (getCache : U64 → Go Loaded) (hash : List Byte) (height nonce : U64)
    (mix digest : List Byte) (h : Clients.kawpow P fuel d getCache hash height nonce = .ok (some (mix, digest))) :
    mix.length = 32 ∧ digest = quickDigest Spec.Progpow.kawpow hash nonce.toNat mix := by
  by_cases hh : hash.length = 32
  · rw [Clients.kawpow, if_neg (by simpa using hh)] at h
    obtain ⟨⟨size, cache⟩, _, h⟩ := bind_ok_inv h
    obtain ⟨⟨m, g⟩, h1, h⟩ := bind_ok_inv h
    injection h with h
    injection h with h
    injection h with ha hb
    subst ha
    subst hb
    rw [Progpow.kawpow] at h1
    obtain ⟨⟨s, head⟩, h2, h1⟩ := bind_ok_inv h1
    obtain ⟨m', h3, h1⟩ := bind_ok_inv h1
    obtain ⟨g', h4, h1⟩ := bind_ok_inv h1
    injection h1 with h1
    injection h1 with ha hb
    subst ha
    subst hb
    exact ⟨progpow_form h3, quick_form (by
        obtain ⟨⟨c, hc, _⟩, _⟩ := C25_kawpow hash hh nonce _ _ (Crypto.f800_length []) (List.length_replicate (n := 8) (a := 0))
        exact ⟨c, hc⟩)
      (fun m hm => (C25_kawpow hash hh nonce _ m (Crypto.f800_length _) hm).2) (progpow_form h3) h2 h4⟩
  · rw [Clients.kawpow, if_pos hh] at h
    injection h with h
    cases h

/-- **C71** the same for FiroPoW -/
theorem C71_firopow_quick (P : Prims) (fuel : Nat) (d : Config) (getCache : U64 → Go Loaded) (hash : List Byte) (height nonce : U64)
    (mix digest : List Byte) (h : Clients.firopow P fuel d getCache hash height nonce = .ok (some (mix, digest))) :
    mix.length = 32 ∧ digest = quickDigest Spec.Progpow.firopow hash nonce.toNat mix := by
  by_cases hh : hash.length = 32
  · rw [Clients.firopow, if_neg (by simpa using hh)] at h
    obtain ⟨⟨size, cache⟩, _, h⟩ := bind_ok_inv h
    obtain ⟨⟨m, g⟩, h1, h⟩ := bind_ok_inv h
    injection h with h
    injection h with h
    injection h with ha hb
    subst ha
    subst hb
    rw [Progpow.firopow] at h1
    obtain ⟨⟨s, head⟩, h2, h1⟩ := bind_ok_inv h1
    obtain ⟨m', h3, h1⟩ := bind_ok_inv h1
    obtain ⟨g', h4, h1⟩ := bind_ok_inv h1
    injection h1 with h1
    injection h1 with ha hb
    subst ha
    subst hb
    exact ⟨progpow_form h3, quick_form (by
        obtain ⟨⟨c, hc, _⟩, _⟩ := C25_firopow hash hh nonce _ _ (Crypto.f800_length []) (List.length_replicate (n := 8) (a := 0))
        exact ⟨c, hc⟩)
      (fun m hm => (C25_firopow hash hh nonce _ m (Crypto.f800_length _) hm).2) (progpow_form h3) h2 h4⟩
  · rw [Clients.firopow, if_pos hh] at h
    injection h with h
    cases h

/-- the clients do have results (here those of heights of years ago, caches in memory), so that the statements are about something -/
example (P : Prims) (o : GenEnv) (nonce : U64) : ∃ mix digest : List Byte,
    Clients.ethash P (2 ^ 64) (ethereum "") (fun e => Prod.fst <$> generate P (2 ^ 64) (ethereum "") e (fun _ => none) o)
      (List.replicate 32 7) 15537393 nonce = .ok (some (mix, digest)) := by
  obtain ⟨⟨m, g⟩, h, _⟩ := C64_ethereum P "" 15537393 (2 ^ 64) (by decide) (fun _ => none) (fun h => absurd rfl h) o (List.replicate 32 7)
    (by simp) nonce ⟨⟨Or.inl (by decide), by decide⟩, by decide, by decide⟩
  exact ⟨m, g, h⟩

example (P : Prims) (o : GenEnv) (nonce : U64) : ∃ digest : List Byte,
    Clients.octopus P (2 ^ 64) (conflux "") (fun e => Prod.fst <$> generate P (2 ^ 64) (conflux "") e (fun _ => none) o)
      (List.replicate 32 7) 100000000 nonce = .ok (some digest) := by
  obtain ⟨g, h, _⟩ := C64_conflux P "" 100000000 (2 ^ 64) (by decide) (fun _ => none) (fun h => absurd rfl h) o (List.replicate 32 7)
    (by simp) nonce ⟨⟨Or.inl (by decide), by decide⟩, by decide, by decide⟩
  exact ⟨g, h⟩

example (P : Prims) (o : GenEnv) (nonce : U64) : ∃ mix digest : List Byte,
    Clients.kawpow P (2 ^ 64) (ravencoin "") (fun e => Prod.fst <$> generate P (2 ^ 64) (ravencoin "") e (fun _ => none) o)
      (List.replicate 32 7) 3500000 nonce = .ok (some (mix, digest)) := by
  obtain ⟨⟨m, g⟩, h, _⟩ := C64_ravencoin P "" 3500000 (2 ^ 64) (by decide) (fun _ => none) (fun h => absurd rfl h) o (List.replicate 32 7)
    (by simp) nonce ⟨⟨Or.inl (by decide), by decide⟩, by decide, by decide⟩
  exact ⟨m, g, h⟩

example (P : Prims) (o : GenEnv) (nonce : U64) : ∃ mix digest : List Byte,
    Clients.firopow P (2 ^ 64) (firo "") (fun e => Prod.fst <$> generate P (2 ^ 64) (firo "") e (fun _ => none) o)
      (List.replicate 32 7) 900000 nonce = .ok (some (mix, digest)) := by
  obtain ⟨⟨m, g⟩, h, _⟩ := C64_firo P "" 900000 (2 ^ 64) (by decide) (fun _ => none) (fun h => absurd rfl h) o (List.replicate 32 7)
    (by simp) nonce ⟨⟨Or.inl (by decide), by decide⟩, by decide, by decide⟩
  exact ⟨m, g, h⟩

end Verif.Props
