import Verif.Model.Basic

/-! # JSON texts

A reader for JSON (RFC 8259), written after its grammar and apart from scribbu. Strings are left as they are encoded: their bytes, and
the code units of `\u`. -/

namespace Scribbu.Spec.Json

/-- A part of a string: a byte, or `\uXXXX`. -/
inductive Ch
  | raw (b : Byte)
  | u (n : Nat)
  deriving DecidableEq, Repr

mutual
  /-- A value. A number has a sign, an integer part, and digits after the point and the exponent as they are written. -/
  inductive J
    | null
    | bool (b : Bool)
    | num (neg : Bool) (int : Nat) (frac exp : Bytes)
    | str (s : List Ch)
    | arr (l : Js)
    | obj (m : Ms)
  /-- The elements of an array. -/
  inductive Js
    | nil
    | cons (j : J) (l : Js)
  /-- The members of an object. -/
  inductive Ms
    | nil
    | cons (k : List Ch) (j : J) (m : Ms)
end

/-- White space. -/
def ws (c : Byte) : Bool := c = 32 ∨ c = 9 ∨ c = 10 ∨ c = 13

/-- After white space. -/
def skip (b : Bytes) : Bytes := b.dropWhile ws

/-- What a character after a backslash stands for. -/
def short (c : Byte) : Option Byte :=
  if c = 34 then some 34
  else if c = 92 then some 92
  else if c = 47 then some 47
  else if c = 98 then some 8
  else if c = 102 then some 12
  else if c = 110 then some 10
  else if c = 114 then some 13
  else if c = 116 then some 9
  else none

/-- A hexadecimal digit. -/
def hexDig (c : Byte) : Option Nat :=
  if 48 ≤ c ∧ c ≤ 57 then some (c.toNat - 48)
  else if 97 ≤ c ∧ c ≤ 102 then some (c.toNat - 87)
  else if 65 ≤ c ∧ c ≤ 70 then some (c.toNat - 55)
  else none

/-- What follows an opening quotation mark: the string, and what is after the closing one. Control characters are not allowed. -/
def string : Bytes → Option (List Ch × Bytes)
  | [] => none
  | c :: r =>
    if c = 34 then some ([], r)
    else if c < 32 then none
    else if c ≠ 92 then (string r).map fun p => (.raw c :: p.1, p.2)
    else
      match r with
      | [] => none
      | e :: r =>
        match short e with
        | some d => (string r).map fun p => (.raw d :: p.1, p.2)
        | none =>
          if e = 117 then
            match r with
            | a :: b :: c :: d :: r =>
              match hexDig a, hexDig b, hexDig c, hexDig d with
              | some a, some b, some c, some d => (string r).map fun p => (.u (4096 * a + 256 * b + 16 * c + d) :: p.1, p.2)
              | _, _, _, _ => none
            | _ => none
          else none

/-- A decimal digit. -/
def dig (c : Byte) : Bool := 48 ≤ c ∧ c ≤ 57

/-- What digits stand for. -/
def digits (b : Bytes) : Nat := b.foldl (fun n c => 10 * n + (c.toNat - 48)) 0

/-- The point with the digits after it, if there is one. -/
def fraction (b : Bytes) : Option (Bytes × Bytes) :=
  match b with
  | 46 :: r => if r.takeWhile dig = [] then none else some (r.takeWhile dig, r.dropWhile dig)
  | _ => some ([], b)

/-- The exponent, if there is one. -/
def exponent (b : Bytes) : Option (Bytes × Bytes) :=
  match b with
  | [] => some ([], [])
  | c :: r =>
    if c = 101 ∨ c = 69 then
      let (sign, r) : Bytes × Bytes := match r with
        | 43 :: r => ([43], r)
        | 45 :: r => ([45], r)
        | _ => ([], r)
      if r.takeWhile dig = [] then none else some (sign ++ r.takeWhile dig, r.dropWhile dig)
    else some ([], b)

/-- A number: no zeros in front. -/
def number (neg : Bool) (b : Bytes) : Option (J × Bytes) :=
  let i := b.takeWhile dig
  if i = [] ∨ (i.head? = some 48 ∧ 1 < i.length) then none
  else
    (fraction (b.dropWhile dig)).bind fun f => (exponent f.2).map fun e => (.num neg (digits i) f.1 e.1, e.2)

/-- A word. -/
def word (w : Bytes) (j : J) (b : Bytes) : Option (J × Bytes) :=
  if b.take w.length = w then some (j, b.drop w.length) else none

mutual
  /-- A value, and what is after it; the number bounds how deep values are nested and how many there are in one. -/
  def value : Nat → Bytes → Option (J × Bytes)
    | 0, _ => none
    | n + 1, b =>
      match skip b with
      | [] => none
      | c :: r =>
        if c = 123 then
          match skip r with
          | [] => none
          | d :: r' => if d = 125 then some (.obj .nil, r') else (members n (d :: r')).map fun p => (.obj p.1, p.2)
        else if c = 91 then
          match skip r with
          | [] => none
          | d :: r' => if d = 93 then some (.arr .nil, r') else (elements n (d :: r')).map fun p => (.arr p.1, p.2)
        else if c = 34 then (string r).map fun p => (.str p.1, p.2)
        else if c = 45 then number true r
        else if dig c then number false (c :: r)
        else if c = 116 then word [116, 114, 117, 101] (.bool true) (c :: r)
        else if c = 102 then word [102, 97, 108, 115, 101] (.bool false) (c :: r)
        else if c = 110 then word [110, 117, 108, 108] .null (c :: r)
        else none
  /-- The members of an object, up to the closing brace. -/
  def members : Nat → Bytes → Option (Ms × Bytes)
    | 0, _ => none
    | n + 1, b =>
      match skip b with
      | [] => none
      | c :: r =>
        if c ≠ 34 then none
        else
          match string r with
          | none => none
          | some (k, r) =>
            match skip r with
            | [] => none
            | d :: r =>
              if d ≠ 58 then none
              else
                match value n r with
                | none => none
                | some (v, r) =>
                  match skip r with
                  | [] => none
                  | e :: r =>
                    if e = 125 then some (.cons k v .nil, r)
                    else if e = 44 then (members n r).map fun p => (.cons k v p.1, p.2)
                    else none
  /-- The elements of an array, up to the closing bracket. -/
  def elements : Nat → Bytes → Option (Js × Bytes)
    | 0, _ => none
    | n + 1, b =>
      match value n b with
      | none => none
      | some (v, r) =>
        match skip r with
        | [] => none
        | e :: r =>
          if e = 93 then some (.cons v .nil, r)
          else if e = 44 then (elements n r).map fun p => (.cons v p.1, p.2)
          else none
end

/-- Values one after the other, with white space between them or not, and nothing else. -/
def values : Nat → Bytes → Option (List J)
  | 0, _ => none
  | n + 1, b =>
    if skip b = [] then some []
    else
      match value n b with
      | none => none
      | some (v, r) => (values n r).map (v :: ·)

/-- Reading all of a text as values: no more of them than bytes, nor deeper. -/
def read (b : Bytes) : Option (List J) := values (2 * b.length + 2) b

/-! ## Looking into values -/

/-- A text of which every byte stands for itself. -/
def text (b : Bytes) : List Ch := b.map .raw

/-- A whole number. -/
def nat (n : Nat) : J := .num false n [] []

/-- An array. -/
def array : List J → J := fun l => .arr (l.foldr Js.cons Js.nil)

/-- An object. -/
def object : List (Bytes × J) → J := fun l => .obj (l.foldr (fun p m => Ms.cons (text p.1) p.2 m) Ms.nil)

end Scribbu.Spec.Json
