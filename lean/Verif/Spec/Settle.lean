import Verif.Spec.Tag23
import Verif.Model.Tag22
import Verif.Model.Tag23
import Verif.Model.Tag24
import Verif.Model.Read

/-! What it means to read a tag and write it again without having changed it. -/

namespace Scribbu.Spec
open Scribbu

/-- The bytes `b` are read as an ID3v2.3 tag, and writing that tag gives `b'`. -/
def Rewritten23 (z : Zlib) (b b' : Bytes) : Prop := ∃ t s x,
  maybeReadId3v2 (fun _ => SM.throw .other) (Tag23.read z) (fun _ => SM.throw .other)
    ⟨b, 0, IoBits.none, IoBits.none⟩ = (.ok (some t), s) ∧ t.write z false = .ok (b', x)

/-- The bytes `b` are read as an ID3v2.2 tag, and writing that tag gives `b'`. -/
def Rewritten22 (b b' : Bytes) : Prop := ∃ t s x,
  maybeReadId3v2 Tag22.read (fun _ => SM.throw .other) (fun _ => SM.throw .other)
    ⟨b, 0, IoBits.none, IoBits.none⟩ = (.ok (some t), s) ∧ t.write false = .ok (b', x)

/-- The bytes `b` are read as an ID3v2.4 tag, and writing that tag gives `b'`. -/
def Rewritten24 (z : Zlib) (b b' : Bytes) : Prop := ∃ t s x,
  maybeReadId3v2 (fun _ => SM.throw .other) (fun _ => SM.throw .other) (Tag24.read z)
    ⟨b, 0, IoBits.none, IoBits.none⟩ = (.ok (some t), s) ∧ t.write z false = .ok (b', x)

/-- `B 0`, `B 1`, … come from each other by rewriting. -/
def RewriteChain (R : Bytes → Bytes → Prop) (B : Nat → Bytes) : Prop := ∀ n, R (B n) (B (n + 1))

end Scribbu.Spec
