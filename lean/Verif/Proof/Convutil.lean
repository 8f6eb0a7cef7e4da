import Verif.Go.Prelude
import Verif.Go.Bytes
import Verif.Go.Update
import Verif.Model.Convutil

set_option autoImplicit false

namespace Verif.Convutil

open Go

theorem uint32ToBytes_eq (v : U32) (o : ByteOrder) : uint32ToBytes v o = .ok (bytesOf o 4 v) := by
  simp [uint32ToBytes, putU32]

theorem uint64ToBytes_eq (v : U64) (o : ByteOrder) : uint64ToBytes v o = .ok (bytesOf o 8 v) := by
  simp [uint64ToBytes, putU64]

theorem uint32ArrayToBytes_eq (arr : List U32) (o : ByteOrder) :
    uint32ArrayToBytes arr o = .ok (arr.flatMap (bytesOf o 4)) := by
  have hlen : ∀ l : List U32, (l.flatMap (bytesOf o 4)).length = 4 * l.length := fun l =>
    flatMap_length_const _ 4 (fun a => bytesOf_length o 4 a) l
  obtain ⟨buf, h, hb⟩ := forRange_inv (f := putStep arr o)
    (fun i b => b = (arr.take i).flatMap (bytesOf o 4) ++ List.replicate ((arr.length - i) * 4) 0)
    0 arr.length (List.replicate (arr.length * 4) 0) (by omega) (by simp) (by
      intro i b _ hi hb
      refine ⟨_, ?_, rfl⟩
      simp only [putStep]
      rw [idx_ok _ _ hi, ok_bind, putU32]
      have hl : b.length = arr.length * 4 := by
        rw [hb, List.length_append, hlen, List.length_take, List.length_replicate]; omega
      rw [if_neg (by omega), if_neg (by omega)]
      congr 1
      have h4 : i * 4 = ((arr.take i).flatMap (bytesOf o 4)).length := by
        rw [hlen, List.length_take]; omega
      have e1 : b.take (i * 4) = (arr.take i).flatMap (bytesOf o 4) := by
        rw [hb, h4, List.take_left']; rfl
      have e2 : b.drop (i * 4 + 4) = List.replicate ((arr.length - (i + 1)) * 4) 0 := by
        rw [hb, h4, ← List.drop_drop, List.drop_left']
        · rw [List.drop_replicate]; congr 1; omega
        · rfl
      rw [e1, e2, List.take_add_one, List.getElem?_eq_getElem hi, List.flatMap_append]
      simp)
  rw [uint32ArrayToBytes, h, hb]
  simp

/-- the words of a byte string -/
def words32 (o : ByteOrder) (buf : List Byte) : List U32 :=
  (List.range (buf.length / 4)).map fun i => BitVec.ofNat 32 (natOf o ((buf.drop (4 * i)).take 4))

theorem bytesToUint32Array_eq (buf : List Byte) (o : ByteOrder) :
    bytesToUint32Array buf o = .ok (words32 o buf) := by
  obtain ⟨arr, h, hb⟩ := forRange_inv (f := getStep buf o)
    (fun i a => a = (List.range i).map (fun i => BitVec.ofNat 32 (natOf o ((buf.drop (4 * i)).take 4))) ++
      List.replicate (buf.length / 4 - i) 0)
    0 (buf.length / 4) (List.replicate (buf.length / 4) 0) (by omega) (by simp) (by
      intro i a _ hi ha
      refine ⟨_, ?_, rfl⟩
      simp only [getStep]
      rw [slc_ok _ _ _ (by omega) (by omega), ok_bind, getU32, if_pos (by simp; omega), ok_bind,
        upd_ok _ _ _ (by rw [ha]; simp; omega)]
      congr 1
      have e0 : ((buf.take ((i + 1) * 4)).drop (i * 4)).take 4 = (buf.drop (4 * i)).take 4 := by
        rw [List.drop_take, List.take_take, Nat.mul_comm i 4]
        congr 1
        omega
      rw [e0, ha, List.range_succ, List.map_append, List.set_append_right _ _ (by simp)]
      simp only [List.length_map, List.length_range, Nat.sub_self, List.map_cons, List.map_nil, List.append_assoc]
      congr 1
      obtain ⟨m, hm⟩ : ∃ m, buf.length / 4 - i = m + 1 := ⟨buf.length / 4 - i - 1, by omega⟩
      rw [hm, List.replicate_succ, List.set_cons_zero, show buf.length / 4 - (i + 1) = m by omega]
      rfl)
  rw [bytesToUint32Array]
  simp only [h, hb]
  simp [words32]

theorem words32_length (o : ByteOrder) (buf : List Byte) : (words32 o buf).length = buf.length / 4 := by simp [words32]

end Verif.Convutil

namespace Verif.Crypto

open Go

theorem fnvHash_eq (mix data : List U32) (h : mix.length ≤ data.length) :
    fnvHash mix data = .ok (List.zipWith fnv1 mix data) := by
  rw [fnvHash, forRange_update (f := fnvStep data) (fun i x => fnv1 x (data.getD i 0)) _ _ (Nat.le_refl _)]
  · congr 1
    apply List.ext_getElem (by simp; omega)
    intro i h1 h2
    have hi : i < mix.length := by simpa using h1
    have hd : i < data.length := by omega
    simp [hi, hd]
  · intro i m x hi hl hm _
    have hd : i < data.length := by omega
    simp only [fnvStep]
    rw [idx, hm, ok_bind, idx_ok data i hd, ok_bind, upd_ok _ _ _ (by omega)]
    simp [hd]

theorem fnvHash_short (mix data : List U32) (h : data.length < mix.length) :
    fnvHash mix data = .error (.panic .index) := by
  have hrun : forRange 0 data.length mix (fnvStep data) =
      .ok (mix.mapIdx fun i x => if i < data.length then fnv1 x (data.getD i 0) else x) := by
    apply forRange_update (f := fnvStep data) (fun i x => fnv1 x (data.getD i 0)) _ _ (by omega)
    intro i m x hi hl hm _
    simp only [fnvStep]
    rw [idx, hm, ok_bind, idx_ok data i hi, ok_bind, upd_ok _ _ _ (by omega)]
    simp [hi]
  obtain ⟨k, hk⟩ : ∃ k, mix.length = data.length + (k + 1) := ⟨mix.length - data.length - 1, by omega⟩
  rw [fnvHash, forRange, hk, Nat.sub_zero, loop_add]
  rw [forRange, Nat.sub_zero] at hrun
  rw [hrun, ok_bind]
  simp only [loop, fnvStep]
  rw [idx_ok _ _ (by simp; omega), ok_bind, idx_err data _ (by omega)]
  rfl

end Verif.Crypto
