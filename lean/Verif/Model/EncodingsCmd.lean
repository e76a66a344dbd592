import Verif.Model.Charset

/-! # `scribbu encodings` (src/encodings.cc) -/

namespace Scribbu
namespace EncodingsCmd

/-- The loop from `ASCII` up to `MAX_ENCODING`: src/encodings.cc L101-106. `xs`: the values that are left, `out`: what has been written. -/
def listing : List Encoding → Bytes → Res Bytes
  | [], out => .ok out
  | x :: xs, out => x.print.bind fun n => listing xs (out ++ n ++ [10])

/-- `handle_encodings` without options: the status and what it writes to the standard output: src/encodings.cc L68-119. -/
def run : Nat × Bytes :=
  match listing Encoding.all [] with
  | .ok out => (0, out)
  | _ => (1, [])

end EncodingsCmd
end Scribbu
