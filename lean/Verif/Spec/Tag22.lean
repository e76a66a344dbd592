import Verif.Model.Tag22
import Verif.Spec.Bodies
import Verif.Spec.TagCloud
import Verif.Spec.Unsync
import Verif.Spec.Header

/-! Independent specification of ID3v2.2 frames and tags (id3v2-00.txt, sections 3.1-3.2). -/

namespace Scribbu.Spec

/-- Three bytes, most significant first. -/
def be24 (n : Nat) : Bytes := [UInt8.ofNat (n / 65536), UInt8.ofNat (n / 256), UInt8.ofNat n]

/-- The bytes of a frame: identifier, size, payload. -/
def frame22 (id : Id3) (payload : Bytes) : Bytes := [id.a, id.b, id.c] ++ be24 payload.length ++ payload

/-- The bytes of a sequence of frames. -/
def frames22 (fs : List (Id3 × Bytes)) : Bytes := (fs.map fun f => frame22 f.1 f.2).flatten

/-- Bodies that a frame of kind `k` can hold and that have an unambiguous encoding: terminated
strings do not contain their terminator, and sets and maps are in order. -/
def WFBody (ver : Ver) : Kind → Body → Prop
  | .unknown, .unknown _ => True
  | .ufid, .ufid u => (0 : Byte) ∉ u.owner
  | .text, .text _ _ => True
  | .txxx, .txxx t => t.cbnil = cbnilOf ver t.unicode ∧ NoNul t.cbnil t.desc
  | .comm, .comm c => ∃ u l, c.unicode = some u ∧ c.lang = some l ∧ c.ver = some ver ∧
      c.dstEnc = Comm.encOf ver u ∧ Comm.encOf ver u ≠ none ∧ c.cbnil = cbnilOf ver u ∧ NoNul c.cbnil c.desc
  | .pcnt, .pcnt _ => True
  | .popm, .popm p => (0 : Byte) ∉ p.email
  | .xtag, .xtag t => MapOk t.tags ∧ (0 : Byte) ∉ t.own ∧
      ∀ e ∈ t.tags, (0 : Byte) ∉ e.1 ∧ (∀ v ∈ e.2, (0 : Byte) ∉ v) ∧
        (e.2.map fun v => v.length + 1).sum < 2 ^ 32
  | .priv, .priv p => (0 : Byte) ∉ p.email
  | _, _ => False

/-- FF directly followed by 00 or by a byte with its three highest bits set: what unsynchronisation
changes. -/
def NeedsStuffing (b : Bytes) : Prop := HasPair 0xff (fun c => c = 0 ∨ 0xe0 ≤ c.toNat) b

/-- The body of the frame serialises to `w` and, if the frame keeps serialised copies, they are
copies of that. -/
def Current (f : Frame22) (w : Bytes) : Prop :=
  f.body.serialize = .ok w ∧
  (f.dirty = true ∨ (f.plain = frame22 f.id w ∧ f.unsynced = unsynchronise false (frame22 f.id w)))

/-- The conditions under which the library stores an ID3v2.2 tag faithfully, when asked to with
`write(os, arg)`. The tag has been given a padding; every frame has an identifier other than 00 00 00,
an unambiguous, nonempty and not too long payload, and no out-of-date copy; and either what is
written contains nothing that unsynchronisation would change, or the tag is marked as
unsynchronised, `arg` is false and no payload ends in FF. -/
structure Storable (t : Tag22) (arg : Bool) (w : Frame22 → Bytes) (c : Bool) (pad : Nat) : Prop where
  comp : t.compression = some c
  padding : t.padding = some pad
  frames : ∀ f ∈ t.frames, Current f (w f) ∧ WFBody .v2 (kind22 f.id) f.body ∧ f.id ≠ ⟨0, 0, 0⟩ ∧
    w f ≠ [] ∧ (w f).length < 2 ^ 24
  stuffing : ¬ NeedsStuffing (frames22 (t.frames.map fun f => (f.id, w f)) ++ List.replicate pad 0) ∨
    (t.unsync = some true ∧ arg = false ∧ ∀ f ∈ t.frames, (w f).getLast? ≠ some 0xff)

/-- The bytes of a string of ASCII characters. -/
def ascii (s : String) : Bytes := s.toList.map fun c => UInt8.ofNat c.toNat

/-- The text information frames of ID3v2.2: id3v2-00, section 4.2.1. -/
def textFrames22 : List String :=
  ["TAL", "TBP", "TCM", "TCO", "TCR", "TDA", "TDY", "TEN", "TFT", "TIM", "TKE", "TLA", "TLE", "TMT", "TOA", "TOF", "TOL", "TOR",
   "TOT", "TP1", "TP2", "TP3", "TP4", "TPA", "TPB", "TRC", "TRD", "TRK", "TSI", "TSS", "TT1", "TT2", "TT3", "TXT", "TYE"]

end Scribbu.Spec
