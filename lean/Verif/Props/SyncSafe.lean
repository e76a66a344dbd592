import Verif.Proofs.SyncSafe

/-! Properties C01 and C02: the integer codecs. -/

namespace Scribbu.Props
open Scribbu Scribbu.Spec

/-- **C01** Encoding succeeds exactly for values up to `0x0fffffff`, otherwise
`std::invalid_argument`; the four bytes are sync-safe, have the right base-128
value and decode to the number encoded. -/
theorem C01_sync_safe_encode_decode (x : Nat) :
    (x ≤ 0x0fffffff →
      ∃ b0 b1 b2 b3, syncSafeFromUnsigned x = .ok (b0, b1, b2, b3) ∧
        (∀ b ∈ [b0, b1, b2, b3], b.toNat < 0x80) ∧
        syncSafe [b0, b1, b2, b3] = x ∧
        unsignedFromSyncSafe4 b0 b1 b2 b3 = x) ∧
    (0x0fffffff < x → syncSafeFromUnsigned x = .throw .invalidArgument) := by
  constructor
  · intro hx
    refine ⟨_, _, _, _, by unfold syncSafeFromUnsigned; rw [if_neg (by omega)], ?_, ?_, ?_⟩
    · intro b hb
      simp only [List.mem_cons, List.not_mem_nil, or_false] at hb
      rcases hb with rfl | rfl | rfl | rfl <;> rw [toNat_ofNat_and127] <;>
        exact Nat.mod_lt _ (by decide)
    · simp only [syncSafe, ofDigits, List.map, List.foldl, toNat_ofNat_and127,
        Nat.shiftRight_eq_div_pow]
      omega
    · rw [ss4_eq]
      simp only [toNat_ofNat_and127, Nat.shiftRight_eq_div_pow]
      omega
  · intro hx
    unfold syncSafeFromUnsigned
    rw [if_pos (by omega)]

/-- **C01** Conversely any four bytes below `0x80` are reproduced by decoding
and re-encoding. -/
theorem C01_sync_safe_decode_encode (b0 b1 b2 b3 : Byte)
    (h : ∀ b ∈ [b0, b1, b2, b3], b.toNat < 0x80) :
    syncSafeFromUnsigned (unsignedFromSyncSafe4 b0 b1 b2 b3) = .ok (b0, b1, b2, b3) := by
  have h0 := h b0 (by simp); have h1 := h b1 (by simp)
  have h2 := h b2 (by simp); have h3 := h b3 (by simp)
  rw [ss4_eq]
  unfold syncSafeFromUnsigned
  rw [if_neg (by omega)]
  congr 1
  refine Prod.ext ?_ (Prod.ext ?_ (Prod.ext ?_ ?_)) <;>
  · apply UInt8.toNat.inj
    simp only [toNat_ofNat_and127, Nat.shiftRight_eq_div_pow]
    omega

example : syncSafeFromUnsigned 257 = .ok (0, 0, 2, 1) := by decide
example : syncSafeFromUnsigned 0x10000000 = .throw .invalidArgument := by decide
example : unsignedFromSyncSafe4 0x7f 0x7f 0x7f 0x7f = 0x0fffffff := by decide

/-- **C02** The sync-safe decoders give the base-128 value of the low seven bits
of each byte (low four bits of the leading byte of five) and stay in range. -/
theorem C02_sync_safe_decoders (b0 b1 b2 b3 b4 : Byte) :
    (unsignedFromSyncSafe3 b0 b1 b2 = syncSafe [b0, b1, b2] ∧
      unsignedFromSyncSafe3 b0 b1 b2 < 2 ^ 21) ∧
    (unsignedFromSyncSafe4 b0 b1 b2 b3 = syncSafe [b0, b1, b2, b3] ∧
      unsignedFromSyncSafe4 b0 b1 b2 b3 < 2 ^ 28) ∧
    (unsignedFromSyncSafe5 b0 b1 b2 b3 b4 = syncSafe [b0 % 16, b1, b2, b3, b4] ∧
      unsignedFromSyncSafe5 b0 b1 b2 b3 b4 < 2 ^ 32) := by
  have e : (b0 % 16).toNat % 128 = b0.toNat % 16 := by
    rw [UInt8.toNat_mod]; simp; omega
  simp only [ss3_eq, ss4_eq, ss5_eq, syncSafe, ofDigits, List.map, List.foldl, e]
  omega

/-- **C02** The plain decoders are the big-endian value, and therefore injective. -/
theorem C02_big_endian_decoders (b0 b1 b2 b3 : Byte) :
    unsignedFromNonSyncSafe3 b0 b1 b2 = be [b0, b1, b2] ∧
    unsignedFromNonSyncSafe4 b0 b1 b2 b3 = be [b0, b1, b2, b3] := by
  simp only [ns3_eq, ns4_eq, be, ofDigits, List.map, List.foldl]
  omega

/-- **C02** Injectivity of the plain four-byte decoder. -/
theorem C02_big_endian_injective (a0 a1 a2 a3 b0 b1 b2 b3 : Byte)
    (h : unsignedFromNonSyncSafe4 a0 a1 a2 a3 = unsignedFromNonSyncSafe4 b0 b1 b2 b3) :
    [a0, a1, a2, a3] = [b0, b1, b2, b3] := by
  simp only [ns4_eq] at h
  have := a1.toNat_lt; have := a2.toNat_lt; have := a3.toNat_lt
  have := b1.toNat_lt; have := b2.toNat_lt; have := b3.toNat_lt
  have e0 : a0 = b0 := UInt8.toNat.inj (by omega)
  have e1 : a1 = b1 := UInt8.toNat.inj (by omega)
  have e2 : a2 = b2 := UInt8.toNat.inj (by omega)
  have e3 : a3 = b3 := UInt8.toNat.inj (by omega)
  subst e0 e1 e2 e3; rfl

/-- **C02** Injectivity of the plain three-byte decoder. -/
theorem C02_big_endian_injective3 (a0 a1 a2 b0 b1 b2 : Byte)
    (h : unsignedFromNonSyncSafe3 a0 a1 a2 = unsignedFromNonSyncSafe3 b0 b1 b2) :
    [a0, a1, a2] = [b0, b1, b2] := by
  simp only [ns3_eq] at h
  have := a1.toNat_lt; have := a2.toNat_lt
  have := b1.toNat_lt; have := b2.toNat_lt
  have e0 : a0 = b0 := UInt8.toNat.inj (by omega)
  have e1 : a1 = b1 := UInt8.toNat.inj (by omega)
  have e2 : a2 = b2 := UInt8.toNat.inj (by omega)
  subst e0 e1 e2; rfl

example : unsignedFromNonSyncSafe3 1 2 3 = 66051 := by decide
example : unsignedFromSyncSafe5 0xff 0xff 0xff 0xff 0xff = 2 ^ 32 - 1 := by decide

end Scribbu.Props
