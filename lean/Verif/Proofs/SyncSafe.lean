import Verif.Model.SyncSafe
import Verif.Spec.Numbers

namespace Scribbu

theorem and_7f (n : Nat) : n &&& 0x7f = n % 128 := Nat.and_two_pow_sub_one_eq_mod n 7
theorem and_0f (n : Nat) : n &&& 0x0f = n % 16 := Nat.and_two_pow_sub_one_eq_mod n 4

theorem shl_or {a b i : Nat} (h : b < 2 ^ i) : (a <<< i) ||| b = a * 2 ^ i + b := by
  rw [← Nat.shiftLeft_add_eq_or_of_lt h, Nat.shiftLeft_eq]

theorem ss3_eq (b0 b1 b2 : Byte) : unsignedFromSyncSafe3 b0 b1 b2 =
    (b0.toNat % 128) * 2 ^ 14 + (b1.toNat % 128) * 2 ^ 7 + b2.toNat % 128 := by
  unfold unsignedFromSyncSafe3
  simp only [and_7f]
  have h1 : b1.toNat % 128 < 128 := Nat.mod_lt _ (by decide)
  have h2 : b2.toNat % 128 < 128 := Nat.mod_lt _ (by decide)
  rw [Nat.or_assoc, shl_or (a := b1.toNat % 128) (by omega), shl_or (by omega)]
  omega

theorem ss4_eq (b0 b1 b2 b3 : Byte) : unsignedFromSyncSafe4 b0 b1 b2 b3 =
    (b0.toNat % 128) * 2 ^ 21 + (b1.toNat % 128) * 2 ^ 14 + (b2.toNat % 128) * 2 ^ 7
      + b3.toNat % 128 := by
  unfold unsignedFromSyncSafe4
  simp only [and_7f]
  have h1 : b1.toNat % 128 < 128 := Nat.mod_lt _ (by decide)
  have h2 : b2.toNat % 128 < 128 := Nat.mod_lt _ (by decide)
  have h3 : b3.toNat % 128 < 128 := Nat.mod_lt _ (by decide)
  rw [Nat.or_assoc, Nat.or_assoc, shl_or (a := b2.toNat % 128) (by omega),
    shl_or (a := b1.toNat % 128) (by omega), shl_or (by omega)]
  omega

theorem ss5_eq (b0 b1 b2 b3 b4 : Byte) : unsignedFromSyncSafe5 b0 b1 b2 b3 b4 =
    (b0.toNat % 16) * 2 ^ 28 + (b1.toNat % 128) * 2 ^ 21 + (b2.toNat % 128) * 2 ^ 14
      + (b3.toNat % 128) * 2 ^ 7 + b4.toNat % 128 := by
  unfold unsignedFromSyncSafe5
  simp only [and_7f, and_0f]
  have h1 : b1.toNat % 128 < 128 := Nat.mod_lt _ (by decide)
  have h2 : b2.toNat % 128 < 128 := Nat.mod_lt _ (by decide)
  have h3 : b3.toNat % 128 < 128 := Nat.mod_lt _ (by decide)
  have h4 : b4.toNat % 128 < 128 := Nat.mod_lt _ (by decide)
  rw [Nat.or_assoc, Nat.or_assoc, Nat.or_assoc, shl_or (a := b3.toNat % 128) (by omega),
    shl_or (a := b2.toNat % 128) (by omega),
    shl_or (a := b1.toNat % 128) (by omega), shl_or (by omega)]
  omega

theorem ns3_eq (b0 b1 b2 : Byte) : unsignedFromNonSyncSafe3 b0 b1 b2 =
    b0.toNat * 2 ^ 16 + b1.toNat * 2 ^ 8 + b2.toNat := by
  unfold unsignedFromNonSyncSafe3
  have h1 := b1.toNat_lt; have h2 := b2.toNat_lt
  rw [Nat.or_assoc, shl_or (a := b1.toNat) (by omega), shl_or (by omega)]
  omega

theorem ns4_eq (b0 b1 b2 b3 : Byte) : unsignedFromNonSyncSafe4 b0 b1 b2 b3 =
    b0.toNat * 2 ^ 24 + b1.toNat * 2 ^ 16 + b2.toNat * 2 ^ 8 + b3.toNat := by
  unfold unsignedFromNonSyncSafe4
  have h1 := b1.toNat_lt; have h2 := b2.toNat_lt; have h3 := b3.toNat_lt
  rw [Nat.or_assoc, Nat.or_assoc, shl_or (a := b2.toNat) (by omega),
    shl_or (a := b1.toNat) (by omega), shl_or (by omega)]
  omega

theorem toNat_ofNat_and127 (n : Nat) : (UInt8.ofNat (n &&& 127)).toNat = n % 128 := by
  rw [show (127 : Nat) = 0x7f from rfl, and_7f, UInt8.toNat_ofNat']
  have : n % 128 < 128 := Nat.mod_lt _ (by decide)
  omega

end Scribbu
