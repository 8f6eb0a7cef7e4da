import Verif.Proof.Files
import Verif.Proof.Disk

/-! # Several processes on one directory: the programs -/

set_option autoImplicit false

namespace Verif.Files

open Go Dag

variable {Good : String → List Byte → Prop} {junk : Prop} {α β : Type}

/-! ## Single calls -/

theorem wp_mkdirAll {path : String} {k : Bool → Prog β} {Q : β → Ghost → Prop} {g : Ghost} (h : ∀ b, wp Good junk (k b) Q g) :
    wp Good junk (mkdirAll path >>= k) Q g := h

theorem wp_random {k : Nat → Prog β} {Q : β → Ghost → Prop} {g : Ghost} (h : ∀ n, wp Good junk (k n) Q { g with nums := n :: g.nums }) :
    wp Good junk (random >>= k) Q g := h

theorem wp_create {path : String} {k : Option Nat → Prog β} {Q : β → Ghost → Prop} {g : Ghost}
    (h1 : ∃ p c n, Good p c ∧ path = tempPath p n ∧ n ∈ g.nums) (h2 : wp Good junk (k none) Q g)
    (h3 : ∀ f, wp Good junk (k (some f)) Q { g with own := some (path, f, []) }) : wp Good junk (create path >>= k) Q g := ⟨h1, h2, h3⟩

theorem wp_open {path : String} {k : Option Nat → Prog β} {Q : β → Ghost → Prop} {g : Ghost} {c : List Byte} (h1 : Good path c)
    (h2 : wp Good junk (k none) Q g)
    (h3 : ∀ f c', (c' = c ∨ (junk ∧ Spec.Disk.Rejected c')) → wp Good junk (k (some f)) Q { g with held := (f, c') :: g.held }) :
    wp Good junk (openFile path >>= k) Q g := ⟨c, h1, h2, h3⟩

theorem wp_truncate {f : Nat} {n : Int} {k : Bool → Prog β} {Q : β → Ghost → Prop} {g : Ghost} {name : String} {c : List Byte}
    (h1 : g.own = some (name, f, c)) (h2 : wp Good junk (k false) Q g)
    (h3 : wp Good junk (k true) Q { g with own := some (name, f, resize c n.toNat) }) : wp Good junk (truncate f n >>= k) Q g :=
  ⟨name, c, h1, h2, fun _ => h3⟩

theorem wp_map {f : Nat} {k : Bool → Prog β} {Q : β → Ghost → Prop} {g : Ghost} (h1 : wp Good junk (k false) Q g)
    (h2 : (∀ c, g.Knows f c → c ≠ []) → wp Good junk (k true) Q g) : wp Good junk (map f >>= k) Q g := ⟨h1, h2⟩

theorem wp_read {f : Nat} {k : List Byte → Prog β} {Q : β → Ghost → Prop} {g : Ghost} {c : List Byte} (h1 : g.Knows f c)
    (h2 : wp Good junk (k c) Q g) : wp Good junk (read f >>= k) Q g := ⟨c, h1, h2⟩

theorem wp_store {f off : Nat} {bytes : List Byte} {k : Unit → Prog β} {Q : β → Ghost → Prop} {g : Ghost} {name : String} {c : List Byte}
    (h1 : g.own = some (name, f, c)) (h2 : wp Good junk (k ()) Q { g with own := some (name, f, splice c off bytes) }) :
    wp Good junk (store f off bytes >>= k) Q g := ⟨name, c, h1, h2⟩

theorem wp_lock {f : Nat} {k : Bool → Prog β} {Q : β → Ghost → Prop} {g : Ghost} (h : ∀ b, wp Good junk (k b) Q g) :
    wp Good junk (lock f >>= k) Q g := h

theorem wp_unmap {f : Nat} {k : Bool → Prog β} {Q : β → Ghost → Prop} {g : Ghost} (h : ∀ b, wp Good junk (k b) Q g) :
    wp Good junk (unmap f >>= k) Q g := h

theorem wp_close {f : Nat} {k : Bool → Prog β} {Q : β → Ghost → Prop} {g : Ghost} (h : ∀ b, wp Good junk (k b) Q g) :
    wp Good junk (close f >>= k) Q g := h

theorem wp_rename {source target : String} {k : Bool → Prog β} {Q : β → Ghost → Prop} {g : Ghost} {f : Nat} {c : List Byte}
    (h1 : g.own = some (source, f, c)) (h2 : Good target c) (h3 : wp Good junk (k false) Q g) (h4 : wp Good junk (k true) Q { g with own := none }) :
    wp Good junk (rename source target >>= k) Q g := ⟨f, c, h1, h2, h3, h4⟩

theorem wp_remove {path : String} {k : Bool → Prog β} {Q : β → Ghost → Prop} {g : Ghost} (h : ∀ b, wp Good junk (k b) Q g) :
    wp Good junk (remove path >>= k) Q g := h

theorem wp_lift {a : α} {x : Go α} {k : α → Prog β} {Q : β → Ghost → Prop} {g : Ghost} (hx : x = .ok a) (h : wp Good junk (k a) Q g) :
    wp Good junk (lift x >>= k) Q g := by
  rw [hx]
  exact h

theorem wp_ret {a : α} {Q : α → Ghost → Prop} {g : Ghost} (h : Q a g) : wp Good junk (.ret a) Q g := h

/-! ## memoryMap -/

/-- files once opened stay known -/
def Ghost.Ext (g g' : Ghost) : Prop := ∀ x ∈ g.held, x ∈ g'.held

theorem Ghost.Ext.refl (g : Ghost) : g.Ext g := fun _ h => h

theorem Ghost.Ext.trans {g g' g'' : Ghost} (h : g.Ext g') (h' : g'.Ext g'') : g.Ext g'' := fun x hx => h' x (h x hx)

theorem file_view (w : List U32) : wordView (Spec.Disk.file w) = dumpMagic ++ w := by
  rw [Spec.Disk.file, magic_words, bytes_eq, wordView_bytesLE]
  rfl

theorem dataOf_file (w : List U32) : dataOf (Spec.Disk.file w) = w := by
  rw [dataOf, file_view, List.drop_left]

theorem magic_ok (w : List U32) : forRangeE 0 dumpMagic.length () (magicStep (dumpMagic ++ w)) = .ok (.cont ()) := by
  have := magicLoop_two 0xbaddcafe 0xfee1dead w
  rw [if_pos ⟨rfl, rfl⟩] at this
  exact this

/-- contents without the magic are found out -/
theorem magic_bad (c : List Byte) (h : 8 ≤ c.length) (hm : c.take 8 ≠ Spec.Disk.magic) :
    forRangeE 0 dumpMagic.length () (magicStep (wordView c)) = .ok (.ret ()) := by
  have hc : c = c.take 4 ++ ((c.drop 4).take 4 ++ (c.drop 4).drop 4) := by
    rw [List.take_append_drop, List.take_append_drop]
  have h1 : (c.take 4).length = 4 := by rw [List.length_take]; omega
  have h2 : ((c.drop 4).take 4).length = 4 := by rw [List.length_take, List.length_drop]; omega
  rw [hc, wordView_four _ _ h1, wordView_four _ _ h2, magicLoop_two, if_neg]
  rintro ⟨e1, e2⟩
  refine hm ?_
  rw [← magic_first] at e1
  rw [← magic_second] at e2
  rw [hc, ← List.append_assoc, List.take_left' (by rw [List.length_append, h1, h2]), ofNat_leNat_inj _ _ h1 rfl e1,
    ofNat_leNat_inj _ _ h2 rfl e2]
  rfl

/-- the file that was opened is the right one -/
theorem memoryMap_good {lck : Bool} (w : List U32) {Q : Option Nat → Ghost → Prop} {g : Ghost} {f : Nat}
    (h1 : ∀ g', g.Ext g' → Q none g') (h2 : ∀ f g', g.Ext g' → (f, Spec.Disk.file w) ∈ g'.held → Q (some f) g') :
    wp Good junk (do
      let ok ← map f
      if ok = true then checkMagic f lck
        else do
          let _ ← close f
          Prog.ret none) Q { g with held := (f, Spec.Disk.file w) :: g.held } := by
  obtain ⟨g', hg'⟩ : ∃ g', g' = ({ g with held := (f, Spec.Disk.file w) :: g.held } : Ghost) := ⟨_, rfl⟩
  rw [← hg']
  have he : g.Ext g' := by rw [hg']; exact fun x hx => List.mem_cons_of_mem _ hx
  have hm : (f, Spec.Disk.file w) ∈ g'.held := by rw [hg']; exact List.mem_cons_self
  refine wp_map ?_ fun _ => ?_
  · rw [if_neg (by decide)]
    exact wp_close fun _ => wp_ret (h1 _ he)
  · rw [if_pos (by decide)]
    unfold checkMagic
    refine wp_read (Or.inl hm) ?_
    rw [file_view]
    refine wp_lift (magic_ok w) ?_
    show wp Good junk (mapped f _ lck) Q g'
    unfold mapped
    have hrest : ∀ b : Bool, wp Good junk (if (!b) = true then (do
        let _ ← unmap f
        let _ ← close f
        Prog.ret none) else (do
          let _ ← lift (slc (dumpMagic ++ w) dumpMagic.length (dumpMagic ++ w).length)
          Prog.ret (some f))) Q g' := by
      intro b
      cases b with
      | false =>
        rw [if_pos (by decide)]
        exact wp_unmap fun _ => wp_close fun _ => wp_ret (h1 _ he)
      | true =>
        rw [if_neg (by decide)]
        exact wp_lift (slc_ok _ _ _ (by simp) (Nat.le_refl _)) (wp_ret (h2 f g' he hm))
    cases lck with
    | true => rw [if_pos (by decide)]; exact wp_lock hrest
    | false => rw [if_neg (by decide)]; exact hrest true

theorem memoryMap_wp {path : String} {lck : Bool} {w : List U32} (hgood : Good path (Spec.Disk.file w)) {Q : Option Nat → Ghost → Prop}
    {g : Ghost} (h1 : ∀ g', g.Ext g' → Q none g') (h2 : ∀ f g', g.Ext g' → (f, Spec.Disk.file w) ∈ g'.held → Q (some f) g') :
    wp Good junk (memoryMap path lck) Q g := by
  unfold memoryMap
  refine wp_open hgood (wp_ret (h1 _ (Ghost.Ext.refl g))) ?_
  intro f c' hc'
  rcases hc' with hc' | ⟨_, hrej⟩
  · rw [hc']
    exact memoryMap_good w h1 h2
  obtain ⟨g', hg'⟩ : ∃ g', g' = ({ g with held := (f, c') :: g.held } : Ghost) := ⟨_, rfl⟩
  rw [← hg']
  have he : g.Ext g' := by rw [hg']; exact fun x hx => List.mem_cons_of_mem _ hx
  have hm : (f, c') ∈ g'.held := by rw [hg']; exact List.mem_cons_self
  refine wp_map ?_ fun hne => ?_
  · rw [if_neg (by decide)]
    exact wp_close fun _ => wp_ret (h1 _ he)
  · rw [if_pos (by decide)]
    unfold checkMagic
    refine wp_read (Or.inl hm) ?_
    obtain ⟨h8, hmg⟩ := hrej.resolve_left (hne c' (Or.inl hm))
    refine wp_lift (magic_bad c' h8 hmg) ?_
    exact wp_unmap fun _ => wp_close fun _ => wp_ret (h1 _ he)

/-! ## memoryMapAndGenerate -/

theorem resize_nil (n : Nat) : resize [] n = List.replicate n 0 := by
  simp [resize]

theorem splice_front (c b : List Byte) (h : b.length ≤ c.length) : splice c 0 b = b ++ c.drop b.length := by
  rw [splice, List.take_zero, List.nil_append, Nat.zero_add, List.take_of_length_le]
  rw [List.length_append, List.length_drop]
  omega

theorem splice_tail (a c b : List Byte) (h : c.length = b.length) : splice (a ++ c) a.length b = a ++ b := by
  rw [splice, List.take_left, List.drop_of_length_le (by rw [List.length_append]; omega), List.append_nil, List.take_of_length_le]
  rw [List.length_append, List.length_append]
  omega

/-- the generator gives `data`, and keeps the file that is being written -/
def Gives (Good : String → List Byte → Prop) (junk : Prop) (g0 : Ghost) (generator : List U32 → Prog (List U32)) (data : List U32) : Prop :=
  ∀ dest : List U32, dest.length = data.length → ∀ (g : Ghost) (Q : List U32 → Ghost → Prop), g0.Ext g → Q data g →
    wp Good junk (generator dest) Q g

theorem fill_wp {f : Nat} {generator : List U32 → Prog (List U32)} {data : List U32} {g0 g : Ghost} {name : String} {k : Unit → Prog β}
    {Q : β → Ghost → Prop} (hgen : Gives Good junk g0 generator data) (he : g0.Ext g)
    (ho : g.own = some (name, f, List.replicate (8 + 4 * data.length) 0))
    (h : wp Good junk (k ()) Q { g with own := some (name, f, Spec.Disk.file data) }) : wp Good junk (fill f generator >>= k) Q g := by
  apply wp_bind
  unfold fill
  refine wp_read (Or.inr ⟨name, ho⟩) ?_
  have hz : wordView (List.replicate (8 + 4 * data.length) (0 : Byte)) = List.replicate (data.length + 2) 0 := by
    rw [show 8 + 4 * data.length = 4 * (data.length + 2) by omega, wordView_zeros]
  have htake : dumpMagic.take (data.length + 2) = dumpMagic := List.take_of_length_le (by simp [dumpMagic])
  rw [hz, List.length_replicate, htake, byteView_eq, magic_bytes]
  refine wp_store ho ?_
  have hsp : splice (List.replicate (8 + 4 * data.length) (0 : Byte)) 0 Spec.Disk.magic =
      Spec.Disk.magic ++ List.replicate (4 * data.length) 0 := by
    rw [splice_front _ _ (by rw [List.length_replicate]; exact Nat.le_add_right 8 _), List.drop_replicate]
    rw [show 8 + 4 * data.length - Spec.Disk.magic.length = 4 * data.length from Nat.add_sub_cancel_left ..]
  rw [hsp]
  unfold fillData
  refine wp_read (Or.inr ⟨name, rfl⟩) ?_
  have hv : wordView (Spec.Disk.magic ++ List.replicate (4 * data.length) (0 : Byte)) = dumpMagic ++ List.replicate data.length 0 := by
    rw [magic_words, wordView_zeros]
    rfl
  rw [hv]
  refine wp_lift (slc_ok _ _ _ (by simp) (Nat.le_refl _)) ?_
  rw [List.take_length, List.drop_left]
  apply wp_bind
  refine hgen _ (List.length_replicate ..) _ _ he ?_
  have hst : splice (Spec.Disk.magic ++ List.replicate (4 * data.length) (0 : Byte)) (4 * dumpMagic.length) (byteView data) =
      Spec.Disk.file data := by
    rw [byteView_eq, Spec.Disk.file, bytes_eq]
    exact splice_tail Spec.Disk.magic _ _ (by rw [List.length_replicate, bytesLE_length])
  show rule Good junk _ _ _
  refine ⟨name, _, rfl, ?_⟩
  rw [hst]
  exact h

theorem memoryMapAndGenerate_wp {path : String} {size : U64} {lck : Bool} {generator : List U32 → Prog (List U32)} {data : List U32}
    (hgood : Good path (Spec.Disk.file data)) (hs : size.toNat = 4 * data.length) (hs2 : size.toNat < 2 ^ 62)
    {Q : Option Nat → Ghost → Prop} {g : Ghost} (hgen : Gives Good junk g generator data) (h1 : ∀ g', g.Ext g' → Q none g')
    (h2 : ∀ f g', g.Ext g' → (f, Spec.Disk.file data) ∈ g'.held → Q (some f) g') :
    wp Good junk (memoryMapAndGenerate path size lck generator) Q g := by
  unfold memoryMapAndGenerate
  have hnn : (8 + size : U64).toNat = 8 + 4 * data.length := by
    rw [BitVec.toNat_add, hs]
    exact Nat.mod_eq_of_lt (show 8 + 4 * data.length < 2 ^ 64 by omega)
  have hn : (8 + size : U64).toInt = ((8 + 4 * data.length : Nat) : Int) := by
    rw [BitVec.toInt_eq_toNat_of_lt (by omega), hnn]
  refine wp_mkdirAll ?_
  intro b
  cases b with
  | false => rw [if_pos (by decide)]; exact wp_ret (h1 _ (Ghost.Ext.refl g))
  | true =>
    rw [if_neg (by decide)]
    refine wp_random ?_
    intro n
    unfold createTemp
    refine wp_create ⟨path, _, n, hgood, rfl, List.mem_cons_self⟩ (wp_ret (h1 _ fun x hx => hx)) ?_
    intro f
    have hgive : ∀ g' : Ghost, g.Ext g' → wp Good junk (giveUp f (tempPath path n)) Q g' := by
      intro g' he
      exact wp_close fun _ => wp_remove fun _ => wp_ret (h1 _ he)
    show wp Good junk (writeTo _ _ _ _ _ _) Q _
    unfold writeTo
    refine wp_truncate rfl ?_ ?_
    · rw [if_pos (by decide)]; exact hgive _ fun x hx => hx
    rw [if_neg (by decide), hn, Int.toNat_natCast, resize_nil]
    refine wp_map ?_ fun _ => ?_
    · rw [if_pos (by decide)]; exact hgive _ fun x hx => hx
    rw [if_neg (by decide)]
    refine fill_wp hgen (fun x hx => hx) rfl ?_
    unfold finish
    refine wp_unmap ?_
    intro b
    cases b with
    | false => rw [if_pos (by decide)]; exact wp_ret (h1 _ fun x hx => hx)
    | true =>
      rw [if_neg (by decide)]
      refine wp_close ?_
      intro b
      cases b with
      | false => rw [if_pos (by decide)]; exact wp_ret (h1 _ fun x hx => hx)
      | true =>
        rw [if_neg (by decide)]
        unfold publish
        refine wp_rename rfl hgood ?_ ?_
        · rw [if_pos (by decide)]; exact wp_ret (h1 _ fun x hx => hx)
        · rw [if_neg (by decide)]
          exact memoryMap_wp hgood (fun g' he => h1 _ fun x hx => he x hx) fun f' g' he hm => h2 f' g' (fun x hx => he x hx) hm

/-! ## generate -/

/-- the buffer holds these words -/
def Buffer.Is (held : List (Nat × List Byte)) : Buffer → List U32 → Prop
  | .mem ws, w => ws = w
  | .file f, w => (f, Spec.Disk.file w) ∈ held

theorem Buffer.Is.mono {b : Buffer} {w : List U32} {g g' : Ghost} (h : b.Is g.held w) (he : g.Ext g') : b.Is g'.held w := by
  cases b with
  | mem ws => exact h
  | file f => exact he _ h

theorem load_wp {b : Buffer} {w : List U32} {k : List U32 → Prog β} {Q : β → Ghost → Prop} {g : Ghost} (hb : b.Is g.held w)
    (h : wp Good junk (k w) Q g) : wp Good junk (load b >>= k) Q g := by
  cases b with
  | mem ws =>
    have hb : ws = w := hb
    subst hb
    exact h
  | file f =>
    refine wp_read (k := fun c => Prog.ret (dataOf c) >>= k) (Or.inl hb) ?_
    rw [dataOf_file]
    exact h

section generate
variable (P : Prims) (d : Config) (e size : U64) (sd : List Byte) (n : Nat)
variable (hn : 1 ≤ n) (hn2 : n < 2 ^ 26) (hsize : size.toNat = 64 * n)
include hn hn2 hsize

theorem provideCache_wp {path : String} (hgood : Good path (Spec.Disk.file (pubCache P d size sd))) {k : Buffer → Prog β}
    {Q : β → Ghost → Prop} {g : Ghost} (h : ∀ b g', g.Ext g' → b.Is g'.held (pubCache P d size sd) → wp Good junk (k b) Q g') :
    wp Good junk (provideCache P d size sd path >>= k) Q g := by
  apply wp_bind
  unfold provideCache
  have hl := pubCache_length P d size sd n hn hn2 hsize
  apply wp_bind
  refine memoryMapAndGenerate_wp hgood (by omega) (by omega) ?_ ?_ ?_
  · intro dest hd g' Q' _ hq
    show wp Good junk (lift _) Q' g'
    rw [pubCache_gen P d size sd n hn hn2 hsize dest (by omega)]
    exact hq
  · intro g' he
    refine wp_lift (pubCache_gen P d size sd n hn hn2 hsize _ (freshCache_length size n hsize)) ?_
    exact h _ g' he rfl
  · intro f g' he hm
    exact h (.file f) g' he hm

theorem provideL1_wp (hL : L1Ok d) (hE : d.l1Enabled = true) {path : String} (hgood : Good path (Spec.Disk.file (pubL1 P d size sd)))
    {cache : Buffer} {k : Buffer → Prog β} {Q : β → Ghost → Prop} {g : Ghost} (hc : cache.Is g.held (pubCache P d size sd))
    (h : ∀ b g', g.Ext g' → b.Is g'.held (pubL1 P d size sd) → wp Good junk (k b) Q g') :
    wp Good junk (provideL1 P d cache path >>= k) Q g := by
  have hg := fun dest hd => l1Words_gen P d size sd n hn hn2 hsize dest hL hE hd
  have hl := (hg (List.replicate d.l1CacheNumItems.toNat 0) (List.length_replicate ..)).2
  obtain ⟨h1, h2, h3⟩ := hL hE
  apply wp_bind
  unfold provideL1
  apply wp_bind
  refine memoryMapAndGenerate_wp hgood (by omega) (by omega) ?_ ?_ ?_
  · intro dest hd g' Q' he hq
    refine load_wp (hc.mono he) ?_
    rw [(hg dest (by omega)).1]
    exact hq
  · intro g' he
    refine load_wp (hc.mono he) ?_
    refine wp_lift (a := pubL1 P d size sd) ?_ ?_
    · rw [memoryL1, (hg _ (List.length_replicate ..)).1]
    · exact h _ g' he rfl
  · intro f g' he hm
    exact h (.file f) g' he hm

omit hn hn2 hsize in
theorem cleanup_wp (hsel : d.seedEpochLength ≠ 0) {k : Unit → Prog β} {Q : β → Ghost → Prop} {g : Ghost} (h : wp Good junk (k ()) Q g)
    (start : Int) (i m : Nat) : wp Good junk (cleanupLoop P d start i m >>= k) Q g := by
  apply wp_bind
  induction m generalizing i with
  | zero => exact h
  | succ m ih =>
    unfold cleanupLoop
    refine wp_lift (seedHash_eq P d hsel _) ?_
    refine wp_lift (slc_ok _ _ _ (Nat.zero_le _) (by rw [seed_length]; decide)) ?_
    exact wp_remove fun _ => wp_remove fun _ => ih (i + 1)

/-- whatever others do to the directory, `generate` gives the published cache and L1 cache -/
theorem generate_wp (fuel : Nat) (hsz : cacheSize fuel d e = .ok size) (hsel : d.seedEpochLength ≠ 0)
    (hseed : seedHash P d (e * d.epochLength + 1) = .ok sd) (hL : L1Ok d)
    (hgc : d.storageDir ≠ "" → Good (cacheStorageLocation d (sd.take 8)) (Spec.Disk.file (pubCache P d size sd)))
    (hgl : d.storageDir ≠ "" → d.l1Enabled = true → Good (l1StorageLocation d (sd.take 8)) (Spec.Disk.file (pubL1 P d size sd)))
    (g : Ghost) : wp Good junk (generate P fuel d e) (fun b g => b.cache.Is g.held (pubCache P d size sd) ∧ b.l1.Is g.held (pubL1 P d size sd)) g := by
  unfold generate
  refine wp_lift hsz (wp_lift hseed ?_)
  by_cases hdir : d.storageDir = ""
  · rw [if_pos hdir]
    exact wp_lift (generateInMemory_eq P d size sd n hn hn2 hsize hL) ⟨rfl, rfl⟩
  rw [if_neg hdir]
  unfold generateOnDisk
  have hsl : sd.length = 32 := by
    have := hseed.symm.trans (seedHash_eq P d hsel _)
    injection this with this
    rw [this, seed_length]
  refine wp_lift (slc_ok sd 0 8 (by omega) (by omega)) ?_
  rw [List.drop_zero]
  obtain ⟨cp, hcp⟩ : ∃ x, x = cacheStorageLocation d (sd.take 8) := ⟨_, rfl⟩
  obtain ⟨lp, hlp⟩ : ∃ x, x = l1StorageLocation d (sd.take 8) := ⟨_, rfl⟩
  rw [← hcp] at hgc ⊢
  rw [← hlp] at hgl ⊢
  have hgc := hgc hdir
  have hgl := hgl hdir
  -- the L1 cache and what follows
  have htail : ∀ (old : Option Buffer) (cache : Buffer) (g : Ghost), cache.Is g.held (pubCache P d size sd) →
      (old = none → d.l1Enabled = true) → (∀ b, old = some b → b.Is g.held (pubL1 P d size sd)) →
      wp Good junk (ensureL1 P d cache lp old >>= fun l1 => cleanup P d e >>= fun _ => Prog.ret (⟨cache, l1⟩ : Buffers))
        (fun b g => b.cache.Is g.held (pubCache P d size sd) ∧ b.l1.Is g.held (pubL1 P d size sd)) g := by
    intro old cache g hc h1 h2
    cases old with
    | some b =>
      have : wp Good junk (Prog.ret (⟨cache, b⟩ : Buffers))
          (fun b g => b.cache.Is g.held (pubCache P d size sd) ∧ b.l1.Is g.held (pubL1 P d size sd)) g := ⟨hc, h2 b rfl⟩
      exact cleanup_wp (k := fun _ => Prog.ret (⟨cache, b⟩ : Buffers)) P d hsel this _ _ _
    | none =>
      refine provideL1_wp P d size sd n hn hn2 hsize hL (h1 rfl) (hgl (h1 rfl)) hc ?_
      intro b g' he hb
      have : wp Good junk (Prog.ret (⟨cache, b⟩ : Buffers))
          (fun b g => b.cache.Is g.held (pubCache P d size sd) ∧ b.l1.Is g.held (pubL1 P d size sd)) g' := ⟨hc.mono he, hb⟩
      exact cleanup_wp (k := fun _ => Prog.ret (⟨cache, b⟩ : Buffers)) P d hsel this _ _ _
  -- the cache and what follows
  have hbody : ∀ (oldC : Option Nat) (oldL : Option Buffer) (g : Ghost), (∀ f, oldC = some f → (f, Spec.Disk.file (pubCache P d size sd)) ∈ g.held) →
      (oldL = none → d.l1Enabled = true) → (∀ b, oldL = some b → b.Is g.held (pubL1 P d size sd)) →
      wp Good junk (produce P d e size sd cp lp oldC oldL)
        (fun b g => b.cache.Is g.held (pubCache P d size sd) ∧ b.l1.Is g.held (pubL1 P d size sd)) g := by
    intro oldC oldL g h1 h2 h3
    cases oldC with
    | some f => exact htail oldL (.file f) g (h1 f rfl) h2 h3
    | none =>
      refine provideCache_wp P d size sd n hn hn2 hsize hgc ?_
      intro b g' he hb
      exact htail oldL b g' hb h2 fun b' hb' => (h3 b' hb').mono he
  have hall : ∀ (oldC : Option Nat) (oldL : Option Buffer) (g : Ghost), (∀ f, oldC = some f → (f, Spec.Disk.file (pubCache P d size sd)) ∈ g.held) →
      (oldL = none → d.l1Enabled = true) → (∀ b, oldL = some b → b.Is g.held (pubL1 P d size sd)) →
      wp Good junk (complete P d e size sd cp lp oldC oldL)
        (fun b g => b.cache.Is g.held (pubCache P d size sd) ∧ b.l1.Is g.held (pubL1 P d size sd)) g := by
    intro oldC oldL g h1 h2 h3
    cases oldC with
    | none => exact hbody none oldL g h1 h2 h3
    | some f =>
      cases oldL with
      | none => exact hbody (some f) none g h1 h2 h3
      | some b => exact ⟨h1 f rfl, h3 b rfl⟩
  have hl1 : ∀ (oldC : Option Nat) (g : Ghost), (∀ f, oldC = some f → (f, Spec.Disk.file (pubCache P d size sd)) ∈ g.held) →
      wp Good junk (tryL1 d lp >>= fun oldL => complete P d e size sd cp lp oldC oldL)
        (fun b g => b.cache.Is g.held (pubCache P d size sd) ∧ b.l1.Is g.held (pubL1 P d size sd)) g := by
    intro oldC g h1
    rw [tryL1]
    by_cases hE : d.l1Enabled = true
    · rw [if_pos hE]
      apply wp_bind
      apply wp_bind
      refine memoryMap_wp (hgl hE) ?_ ?_
      · intro g' he
        exact hall oldC none g' (fun f hf => he _ (h1 f hf)) (fun _ => hE) (fun b hb => by cases hb)
      · intro f g' he hm
        refine hall oldC (some (.file f)) g' (fun f hf => he _ (h1 f hf)) (fun _ => hE) ?_
        intro b hb
        injection hb with hb
        subst hb
        exact hm
    · rw [if_neg hE]
      refine hall oldC (some (.mem [])) g h1 (fun hh => by cases hh) ?_
      intro b hb
      injection hb with hb
      subst hb
      show [] = pubL1 P d size sd
      rw [pubL1, if_neg hE]
  apply wp_bind
  refine memoryMap_wp hgc ?_ ?_
  · intro g' he
    exact hl1 none g' (fun f hf => by cases hf)
  · intro f g' he hm
    refine hl1 (some f) g' ?_
    intro f' hf'
    injection hf' with hf'
    subst hf'
    exact hm

end generate

end Verif.Files
