import Verif.Proofs.ShiftTags
import Verif.Props.Sections

/-! # ID3v2 tags that do not begin where the stream does -/

namespace Scribbu.Props
open Scribbu Spec

/-! ## C208: ID3v2 tags are read the same wherever in a stream they begin -/

/-- On the stream of the bytes `d` behind `pre`, positioned there, `x` comes to the same, or fails in the same way, as on a stream of `d` alone; and it leaves the
stream in the same state and as many bytes behind `pre`, unless the behaviour is undefined. -/
def AsIfAlone (x : SM α) (pre d : Bytes) (m : IoBits) : Prop :=
  (x ⟨pre ++ d, pre.length, m, IoBits.none⟩).1 = (x ⟨d, 0, m, IoBits.none⟩).1 ∧
  ((∀ u, (x ⟨d, 0, m, IoBits.none⟩).1 ≠ .ub u) →
    (x ⟨pre ++ d, pre.length, m, IoBits.none⟩).2 =
      ⟨pre ++ (x ⟨d, 0, m, IoBits.none⟩).2.data, pre.length + (x ⟨d, 0, m, IoBits.none⟩).2.pos, (x ⟨d, 0, m, IoBits.none⟩).2.mask, (x ⟨d, 0, m, IoBits.none⟩).2.st⟩)

/-- Whatever is made of the tags. -/
def made2 (g : AnyTag → β) (h : Id3v2Info) : SM β := Tag22.read h >>= fun t => pure (g (.inl t))
/-- Whatever is made of the tags. -/
def made3 (z : Zlib) (g : AnyTag → β) (h : Id3v2Info) : SM β := Tag23.read z h >>= fun t => pure (g (.inr (.inl t)))
/-- Whatever is made of the tags. -/
def made4 (z : Zlib) (g : AnyTag → β) (h : Id3v2Info) : SM β := Tag24.read z h >>= fun t => pure (g (.inr (.inr t)))

namespace Anywhere
open Shift

theorem asIfAlone {x : SM α} {pre : Bytes} (h : Sim pre (At 0) x x (Same (K 0))) (d : Bytes) (m : IoBits) : AsIfAlone x pre d m := by
  have := h ⟨d, 0, m, IoBits.none⟩ (fun _ => by simp)
  have e : sh pre ⟨d, 0, m, IoBits.none⟩ = ⟨pre ++ d, pre.length, m, IoBits.none⟩ := by simp [sh]
  rw [e] at this
  unfold AsIfAlone
  generalize x ⟨d, 0, m, IoBits.none⟩ = a at this ⊢
  generalize x ⟨pre ++ d, pre.length, m, IoBits.none⟩ = b at this ⊢
  rcases a with ⟨r, s1⟩
  rcases b with ⟨r', s2⟩
  cases r <;> cases r' <;> simp only [Rel] at this
  · obtain ⟨rfl, h, _⟩ := this
    subst h
    exact ⟨rfl, fun _ => by simp [sh, Nat.add_comm]⟩
  · obtain ⟨rfl, rfl⟩ := this
    exact ⟨rfl, fun _ => by simp [sh, Nat.add_comm]⟩
  · subst this
    exact ⟨rfl, fun h => absurd rfl (h _)⟩

theorem simple2 {pre : Bytes} (g : AnyTag → β) : Simple pre (made2 g) := fun h => (sim_read22 h).bindE fun _ => sim_pure _ fun _ h => h
theorem simple3 {pre : Bytes} (z : Zlib) (g : AnyTag → β) : Simple pre (made3 z g) := fun h => (sim_read23 z h).bindE fun _ => sim_pure _ fun _ h => h
theorem simple4 {pre : Bytes} (z : Zlib) (g : AnyTag → β) : Simple pre (made4 z g) := fun h => (sim_read24 z h).bindE fun _ => sim_pure _ fun _ h => h

end Anywhere
open Anywhere

/-- Looking whether there is a tag. -/
theorem C208_looking (restore : Bool) (pre d : Bytes) (m : IoBits) : AsIfAlone (lookingAtId3v2 restore) pre d m := asIfAlone (Shift.sim_lookingAt restore) d m

/-- Reading a tag, if there is one. -/
theorem C208_one (z : Zlib) (g : AnyTag → β) (pre d : Bytes) (m : IoBits) : AsIfAlone (maybeReadId3v2 (made2 g) (made3 z g) (made4 z g)) pre d m :=
  asIfAlone (Shift.sim_maybe (simple2 g) (simple3 z g) (simple4 z g)) d m

/-- Reading the tag with a given number. -/
theorem C208_numbered (z : Zlib) (g : AnyTag → β) (n : Nat) (pre d : Bytes) (m : IoBits) : AsIfAlone (readId3v2 (made2 g) (made3 z g) (made4 z g) n) pre d m :=
  asIfAlone (Shift.sim_readNth (simple2 g) (simple3 z g) (simple4 z g) n) d m

/-- Reading all tags, with any number of steps allowed. -/
theorem C208_all (z : Zlib) (g : AnyTag → β) (k : Nat) (pre d : Bytes) (m : IoBits) : AsIfAlone (readAllId3v2 (made2 g) (made3 z g) (made4 z g) k) pre d m :=
  asIfAlone (Shift.sim_readAll (simple2 g) (simple3 z g) (simple4 z g) k) d m

/-- So the tags of a file are its first one, and the tags of what is behind that, read as a file of its own. -/
theorem C208_first_and_rest (z : Zlib) (g : AnyTag → β) (k : Nat) {t rest : Bytes} {m : IoBits} {x : β}
    (h : maybeReadId3v2 (made2 g) (made3 z g) (made4 z g) ⟨t ++ rest, 0, m, IoBits.none⟩ = (.ok (some x), ⟨t ++ rest, t.length, m, IoBits.none⟩)) :
    (readAllId3v2 (made2 g) (made3 z g) (made4 z g) (k + 1) ⟨t ++ rest, 0, m, IoBits.none⟩).1 =
      ((readAllId3v2 (made2 g) (made3 z g) (made4 z g) k ⟨rest, 0, m, IoBits.none⟩).1).bind fun o => .ok (o.map (x :: ·)) := by
  have e := (C208_all z g k t rest m).1
  conv => lhs; unfold readAllId3v2
  rw [SM.bind_ok h]
  rw [← e]
  show (SM.bind _ _ _).1 = _
  unfold SM.bind
  rcases readAllId3v2 (made2 g) (made3 z g) (made4 z g) k ⟨t ++ rest, t.length, m, IoBits.none⟩ with ⟨r, s⟩
  cases r <;> rfl

/-! Cases: an ID3v2.3 tag with a title behind three bytes; and two tags one behind the other. -/

/-- A tag with a title. -/
def titledTag : Bytes := [0x49, 0x44, 0x33, 3, 0, 0, 0, 0, 0, 12] ++ jsonFrame /- TIT2 -/ [84, 73, 84, 50] [0, 98]

/-- How many frames a tag has. -/
def framesIn : AnyTag → Nat
  | .inl t => t.frames.length
  | .inr (.inl t) => t.frames.length
  | .inr (.inr t) => t.frames.length

example : (readAllId3v2 (made2 framesIn) (made3 noZlib framesIn) (made4 noZlib framesIn) 5 ⟨[1, 2, 3] ++ (titledTag ++ titledTag ++ [0, 0]), 3, IoBits.all, IoBits.none⟩).1 =
    .ok (some [1, 1]) := by decide +kernel

example : maybeReadId3v2 (made2 framesIn) (made3 noZlib framesIn) (made4 noZlib framesIn) ⟨titledTag ++ (titledTag ++ [0, 0]), 0, IoBits.all, IoBits.none⟩ =
    (.ok (some 1), ⟨titledTag ++ (titledTag ++ [0, 0]), titledTag.length, IoBits.all, IoBits.none⟩) := by decide +kernel

/-- A tag that cannot be read fails in the same way. -/
example : (readId3v2 (made2 framesIn) (made3 noZlib framesIn) (made4 noZlib framesIn) 1 ⟨[1, 2, 3] ++ titledTag, 3, IoBits.all, IoBits.none⟩).1 = .throw .invalidArgument := by
  decide +kernel

end Scribbu.Props
