import Verif.Model.Lookup

/-!
Copying ID3v2 tags: the copy constructors and assignment operators of the tag classes, scribbu/id3v22.cc L201-240, scribbu/id3v23.cc L348-397, scribbu/id3v24.cc
L498-545, and of their base class, scribbu/id3v2.hh L653-670. `clone` (scribbu/id3v22.hh L101-102, scribbu/id3v23.hh L209-210, scribbu/id3v24.hh L237-238) is the
copy constructor. Not modelled: the parsers and encryption methods that are copied along.
-/

namespace Scribbu
namespace CopyTag

/-- The base class `id3v2_tag`: scribbu/id3v2.hh L1166-1172. -/
structure Head where
  version : Byte
  revision : Byte
  unsync : Option Bool
  deriving DecidableEq, Repr

/-- A tag; `E` is the class of its extended header. For an ID3v2.2 tag `experimental` stands for `compression_`; it has no `ext`. Only ID3v2.4 tags have a `footer`. -/
structure CTag (E : Type) where
  head : Head
  experimental : Bool
  footer : Bool
  ext : Option E
  padding : Nat
  tab : LTag
  deriving DecidableEq, Repr

/-- The loop over the frames, which both functions have in all three classes (scribbu/id3v22.cc L208-211, L229-232; scribbu/id3v23.cc L358-364, L385-391; scribbu/id3v24.cc
L507-513, L535-541): each is cloned, appended, and entered by the base class and with the number of frames so far instead of the index. -/
def reenter (n : LTag) : List Fr → LTag
  | [] => n
  | f :: fs =>
    let (g, n) := n.alloc ⟨.gen, f.cls, f.id, f.data⟩
    let n := { n with frames := n.frames ++ [g] }
    reenter (n.addLookups .gen g n.frames.length) fs

/-- The copy constructors: scribbu/id3v22.cc L201-212, scribbu/id3v23.cc L348-365, scribbu/id3v24.cc L498-515. Those of ID3v2.3 and ID3v2.4 tags initialise the base class with the object under
construction (`id3v2_tag(*this)`). -/
def copy (v : Ver) (t : CTag E) : Res (CTag E) :=
  match v with
  | .v2 => .ok { t with tab := reenter .empty t.tab.frames }
  | .v3 => .ub .uninit
  | .v4 => .ub .uninit

/-- `pext_header_.reset(new ext_header(*that.pext_header_))`: scribbu/id3v23.cc L374, scribbu/id3v24.cc L525. ID3v2.2 tags have none. -/
def assignExt (v : Ver) (that : Option E) : Res (Option E) :=
  match v, that with
  | .v2, _ => .ok none
  | _, some e => .ok (some e)
  | _, none => .ub .nullDeref

/-- The assignment operators: scribbu/id3v22.cc L214-235, scribbu/id3v23.cc L367-394, scribbu/id3v24.cc L517-545. The base class is assigned to itself
(`id3v2_tag::operator=(*this)`). `same`: an assignment of a tag to itself. -/
def assign (v : Ver) (same : Bool) (this that : CTag E) : Res (CTag E) :=
  if same then .ok this
  else (assignExt v that.ext).bind fun e =>
    .ok ⟨this.head, that.experimental, that.footer, e, that.padding, reenter { LTag.empty with next := this.tab.next } that.tab.frames⟩

end CopyTag
end Scribbu
