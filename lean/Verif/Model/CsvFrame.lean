import Verif.Model.Std

/-! # Single frames as comma- or tab-separated values

`os << frame` with `csv_pprinter` or `tdf_pprinter`: scribbu/csv-pprinter.cc L287-736, scribbu/tdf-pprinter.cc L242-694. The two are the same but
for the separator, for `escape`, and for the encoding that the address in an ID3v2.2 popularimeter is taken to be in. -/

namespace Scribbu
namespace CsvFrame
open Report

/-- `setw(2) << setfill('0') << x` for an `unsigned char`, which is put as a character: scribbu/csv-pprinter.cc L325-327 and so on. -/
def padded (b : Bytes) : Bytes := b.flatMap fun x => [48, x]

/-- `os << frame`. `pop`: what ID3v2.2 addresses are in. The classes that are printed are those in the table that `operator<<` looks into, see `Std.frame`. -/
def frame (F : Fmt) (pop : Encoding) (E : Std.Env) (v : Ver) (id : Bytes) (b : Body) : Pr :=
  let put (r : Res Bytes) : Pr := Pr.value (r.bind fun s => .ok (F.esc s))
  let sep := Pr.put [F.sep]
  match b with
  | .unknown _ => Pr.put id
  | .text u t => put (E.base.asStr v (some u) t)
  | .ufid x => Pr.all [put (E.base.latin .ISO_8859_1 x.owner), sep, Pr.put (/- 0x -/ [48, 120] ++ padded x.ident)]
  | .txxx x =>
    fun s =>
      match (E.user v x.unicode x.desc).bind fun d => (E.user v x.unicode x.text).bind fun t => .ok (d, t) with
      | .throw e => (s, .throw e)
      | .ub u => (s, .ub u)
      | .ok (d, t) => Pr.all [Pr.num x.unicode.toNat, sep, Pr.put (F.esc d), sep, Pr.put (F.esc t)] s
  | .comm x =>
    fun s =>
      match Tag22.use x.lang with
      | .throw e => (s, .throw e)
      | .ub u => (s, .ub u)
      | .ok l => Pr.all [Pr.put [l.1, l.2.1, l.2.2], sep, put (E.base.asStr v x.unicode x.desc), sep, put (E.base.asStr v x.unicode x.text)] s
  | .pcnt c => Json.putNum (counterCount c)
  | .popm p =>
    Pr.all [put (E.base.latin (match v with | .v2 => pop | _ => .ISO_8859_1) p.email), sep, Pr.base false, Pr.num p.rating.toNat, sep, Pr.base true,
      Pr.put (p.counter.flatMap hex2)]
  | .encr e =>
    match v with
    | .v2 => fun s => (s, .throw .outOfRange)
    | _ => Pr.all [put (E.base.latin .ISO_8859_1 e.email), sep, Json.putNum ((Tag22.use e.method).bind fun m => .ok m.toNat), sep,
        Pr.put (/- 0x -/ [48, 120] ++ padded e.data)]
  | .xtag t =>
    match v with
    | .v4 => fun s => (s, .throw .outOfRange)
    | _ => Pr.all [put (E.base.conv .UTF_8 t.own), sep, put (E.base.conv .UTF_8 t.urlencoded)]
  | .priv p =>
    match v with
    | .v3 => Pr.value (E.ascii p.email)
    | _ => fun s => (s, .throw .outOfRange)

/-- With comma-separated values; the separator is one that the constructor takes. -/
def csv (sep : Byte) : Std.Env → Ver → Bytes → Body → Pr := frame ⟨sep, fun s => escape s sep⟩ .UTF_8

/-- With tab-separated values. -/
def tdf (ascii : Bool) : Std.Env → Ver → Bytes → Body → Pr := frame (tdfFmt ascii) .ISO_8859_1

end CsvFrame
end Scribbu
