import Verif.Model.Basic

/-! # What is made ready before the interpreter starts: scribbu/scheme.cc L791-892, src/scribbu.cc L462-464 -/

namespace Scribbu
namespace LoadPath

/-- A Scheme value, as far as it matters here. -/
inductive Val where
  | str (b : Bytes)      -- a string, as it is in the locale
  | alien                -- a string with characters that the locale lacks
  | nul                  -- a string with a null character in it
  | other                -- anything else
  deriving DecidableEq, Repr

/-- A list, maybe an improper one. -/
inductive Lst where
  | nil
  | atom
  | pair (x : Val) (rest : Lst)
  deriving DecidableEq, Repr

/-- The two variables of Guile; `none`: there is none. -/
structure Vars where
  version : Option Val
  path : Option Lst
  deriving DecidableEq, Repr

/-- Errors that Guile raises. -/
inductive GErr where
  | wrongType
  | encoding
  | nullChar
  deriving DecidableEq, Repr

/-- `free_locale_string`: scribbu/dynwind-context.cc L33-38. -/
def localeString : Val → Except GErr Bytes
  | .str b => .ok b
  | .alien => .error .encoding
  | .nul => .error .nullChar
  | .other => .error .wrongType

/-- `scm_length`; a list that ends in something else has none. -/
def length : Lst → Except GErr Nat
  | .nil => .ok 0
  | .atom => .error .wrongType
  | .pair _ r => match length r with | .ok n => .ok (n + 1) | .error e => .error e

/-- The loop over the list: scribbu/scheme.cc L866-873. `scm_list_ref` at each index is a walk along the list. -/
def found (site : Bytes) : Lst → Except GErr Bool
  | .pair x r =>
    match localeString x with
    | .error e => .error e
    | .ok b => if b = site then .ok true else found site r
  | _ => .ok false

/-- `customize_load_path`: scribbu/scheme.cc L845-880. -/
def customizeLoadPath (datadir : Bytes) (v : Vars) : Except GErr Vars :=
  match v.path with
  | none => .ok v
  | some (.pair x r) =>
    match length (.pair x r) with
    | .error e => .error e
    | .ok _ =>
      let site := datadir ++ /- /guile/site -/ [0x2f, 0x67, 0x75, 0x69, 0x6c, 0x65, 0x2f, 0x73, 0x69, 0x74, 0x65]
      match found site (.pair x r) with
      | .error e => .error e
      | .ok true => .ok v
      | .ok false => .ok { v with path := some (.pair (.str site) (.pair x r)) }
  | some _ => .ok v

/-- `customize_welcome`: scribbu/scheme.cc L804-831. `text`: what is put in front. -/
def customizeWelcome (text : Bytes) (v : Vars) : Except GErr Vars :=
  match v.version with
  | none => .ok v
  | some x =>
    match localeString x with
    | .error e => .error e
    | .ok b => .ok { v with version := some (.str (text ++ b)) }

/-- `scm_with_guile(&initialize_guile, ...)`: scribbu/scheme.cc L882-892, src/scribbu.cc L463. An error leaves `initialize_guile`; there is a message and the
program goes on, with the variables as they are by then. -/
def start (text datadir : Bytes) (v : Vars) : Option GErr × Vars :=
  match customizeWelcome text v with
  | .error e => (some e, v)
  | .ok v =>
    match customizeLoadPath datadir v with
    | .error e => (some e, v)
    | .ok v => (none, v)

end LoadPath
end Scribbu
