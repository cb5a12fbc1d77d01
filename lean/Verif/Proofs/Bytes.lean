import Verif.Model.Basic
/- Byte-order conversions: lengths and inverses. -/
namespace FinProto

@[simp] theorem leBytes_length (k v : Nat) : (leBytes k v).length = k := by
  induction k generalizing v with
  | zero => rfl
  | succ k ih => simp [leBytes, ih]

@[simp] theorem toBytes_length (e : Endian) (k v : Nat) : (toBytes e k v).length = k := by
  cases e <;> simp [toBytes]

theorem leVal_leBytes (k v : Nat) : leVal (leBytes k v) = v % 256 ^ k := by
  induction k generalizing v with
  | zero => simp [leBytes, leVal, Nat.mod_one]
  | succ k ih =>
    simp only [leBytes, leVal, ih, BitVec.toNat_ofNat]
    rw [show (2:Nat) ^ 8 = 256 from rfl, Nat.pow_succ, Nat.mul_comm (256 ^ k) 256, Nat.mod_mul]

theorem ofBytes_toBytes (e : Endian) (k v : Nat) : ofBytes e (toBytes e k v) = v % 256 ^ k := by
  cases e <;> simp [toBytes, ofBytes, leVal_leBytes]

theorem leVal_lt (bs : List Byte) : leVal bs < 256 ^ bs.length := by
  induction bs with
  | nil => simp [leVal]
  | cons b bs ih =>
    have := b.isLt
    simp only [leVal, List.length_cons, Nat.pow_succ]
    omega

theorem leBytes_leVal (bs : List Byte) : leBytes bs.length (leVal bs) = bs := by
  induction bs with
  | nil => rfl
  | cons b bs ih =>
    have hb := b.isLt
    simp only [List.length_cons, leBytes, leVal]
    have h1 : (b.toNat + 256 * leVal bs) / 256 = leVal bs := by omega
    rw [h1, ih]
    congr 1
    apply BitVec.eq_of_toNat_eq
    simp
    omega

theorem ofBytes_lt (e : Endian) (bs : List Byte) : ofBytes e bs < 256 ^ bs.length := by
  cases e
  · simpa [ofBytes] using leVal_lt bs.reverse
  · simpa [ofBytes] using leVal_lt bs

theorem toBytes_ofBytes (e : Endian) (bs : List Byte) : toBytes e bs.length (ofBytes e bs) = bs := by
  cases e
  · have := leBytes_leVal bs.reverse
    simp [toBytes, ofBytes] at *
    rw [this]; simp
  · simpa [toBytes, ofBytes] using leBytes_leVal bs

theorem pow_size (t : PTy) : 256 ^ t.size = 2 ^ t.bits := by
  rw [show (256:Nat) = 2 ^ 8 from rfl, ← Nat.pow_mul]

@[simp] theorem Num.bytes_length (e : Endian) (n : Num) : (n.bytes e).length = n.ty.size := by
  simp [Num.bytes]

/-- What is read back is what was written. -/
theorem Num.ofBytes_bytes (e : Endian) (n : Num) : Num.ofBytes e n.ty (n.bytes e) = n := by
  obtain ⟨t, v⟩ := n
  have h := v.isLt
  simp only [Num.ofBytes, Num.bytes, ofBytes_toBytes, pow_size]
  rw [Nat.mod_eq_of_lt h]
  simp

/-- What is written after a read is what was read. -/
theorem Num.bytes_ofBytes (e : Endian) (t : PTy) (bs : List Byte) (h : bs.length = t.size) :
    (Num.ofBytes e t bs).bytes e = bs := by
  have h1 := ofBytes_lt e bs
  rw [h, pow_size] at h1
  simp only [Num.ofBytes, Num.bytes, BitVec.toNat_ofNat, Nat.mod_eq_of_lt h1]
  rw [← h, toBytes_ofBytes]

theorem PTy.size_pos (t : PTy) : 0 < t.size := by cases t <;> decide

@[simp] theorem Num.convert_self (n : Num) : n.convert n.ty = some n := by
  simp [Num.convert]

end FinProto
