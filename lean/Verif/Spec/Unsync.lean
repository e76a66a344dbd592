import Verif.Model.Basic

/-! Independent specification of the unsynchronisation scheme. -/

namespace Scribbu.Spec

/-- Each byte paired with the byte before it (`none` for the first). -/
def withPred (bs : Bytes) : List (Option Byte × Byte) :=
  ((none :: bs.map some).zip bs)

/-- The bytes with every 00 that directly follows an FF removed. -/
def dropStuffing (bs : Bytes) : Bytes :=
  ((withPred bs).filter fun x => ¬ (x.1 = some 0xff ∧ x.2 = 0x00)).map Prod.snd

/-- `bs` contains `x` immediately followed by a byte satisfying `q`. -/
def HasPair (x : Byte) (q : Byte → Prop) (bs : Bytes) : Prop :=
  ∃ pre c post, bs = pre ++ x :: c :: post ∧ q c

/-- A false sync: FF followed by a byte whose top three bits are set. -/
def HasFalseSync (bs : Bytes) : Prop := HasPair 0xff (fun c => 0xe0 ≤ c.toNat) bs

end Scribbu.Spec
