import Verif.Model.Main

/-! What the usage message says about the command line: `scribbu [GLOBAL-OPTION...] [SUB-COMMAND] [OPTION...] [ARGUMENT...]` and
`scribbu [GLOBAL-OPTION...] ([-s] FILE|-c EXPR|--) [ARGUMENT...]`. -/

namespace Scribbu.Spec.Main
open Scribbu

/-- What may be asked for instead of doing anything. -/
inductive Ask
  | usage | man | info | version
  deriving DecidableEq, Repr

/-- A global option: one that asks for something, or one for the Scheme interpreter, of one word or with a value. -/
inductive Global
  | ask (a : Ask) (w : Bytes)
  | one (w : Bytes)
  | two (o v : Bytes)
  deriving DecidableEq, Repr

/-- The words that ask for something. -/
def asks : List (Bytes × Ask) := [
  (/- -h -/ [45, 104], .usage), (/- --help -/ [45, 45, 104, 101, 108, 112], .man), (/- --man -/ [45, 45, 109, 97, 110], .man),
  (/- --info -/ [45, 45, 105, 110, 102, 111], .info), (/- -v -/ [45, 118], .version), (/- --version -/ [45, 45, 118, 101, 114, 115, 105, 111, 110], .version)]

/-- `-ds`, `--debug`, `--no-debug`, `--auto-compile`, `--fresh-auto-compile`, `--no-auto-compile`, `-q`, `\`, `--listen` -/
def ones : List Bytes := [[45, 100, 115], [45, 45, 100, 101, 98, 117, 103], [45, 45, 110, 111, 45, 100, 101, 98, 117, 103],
  [45, 45, 97, 117, 116, 111, 45, 99, 111, 109, 112, 105, 108, 101],
  [45, 45, 102, 114, 101, 115, 104, 45, 97, 117, 116, 111, 45, 99, 111, 109, 112, 105, 108, 101],
  [45, 45, 110, 111, 45, 97, 117, 116, 111, 45, 99, 111, 109, 112, 105, 108, 101], [45, 113], [92],
  [45, 45, 108, 105, 115, 116, 101, 110]]

/-- `--language=`, `--listen=`, `--use-srfi=`, which a value follows. -/
def withValue : List Bytes := [[45, 45, 108, 97, 110, 103, 117, 97, 103, 101, 61], [45, 45, 108, 105, 115, 116, 101, 110, 61], [45, 45, 117, 115, 101, 45, 115, 114, 102, 105, 61]]

/-- `-L`, `-C`, `-x`, `-l`, `-e` -/
def twos : List Bytes := [[45, 76], [45, 67], [45, 120], [45, 108], [45, 101]]

/-- `-s`, `-c` -/
def scripts : List Bytes := [[45, 115], [45, 99]]

/-- A global option as it may be written. -/
def Global.Ok : Global → Prop
  | .ask a w => (w, a) ∈ asks
  | .one w => w ∈ ones ∨ ∃ p ∈ withValue, p <+: w
  | .two o _ => o ∈ twos

def Global.words : Global → List Bytes
  | .ask _ w => [w]
  | .one w => [w]
  | .two o v => [o, v]

/-- The words for the interpreter. -/
def Global.guile : Global → List Bytes
  | .ask _ _ => []
  | .one w => [w]
  | .two o v => [o, v]

/-- What is asked for. -/
def Global.asked : Global → Option Ask
  | .ask a _ => some a
  | _ => none

/-- What follows the global options: nothing; a word that is no option, and more; `-s` or `-c` with its value, and more; `--` and more. -/
inductive Tail
  | nothing
  | word (w : Bytes) (rest : List Bytes)
  | script (o x : Bytes) (rest : List Bytes)
  | stop (rest : List Bytes)
  deriving DecidableEq, Repr

/-- A word that is no option. -/
def Plain (w : Bytes) : Prop := w.head? ≠ some 45 ∧ w ≠ [92]

def Tail.Ok : Tail → Prop
  | .nothing => True
  | .word w _ => Plain w
  | .script o _ _ => o ∈ scripts
  | .stop _ => True

def Tail.words : Tail → List Bytes
  | .nothing => []
  | .word w rest => w :: rest
  | .script o x rest => o :: x :: rest
  | .stop rest => [45, 45] :: rest

/-- A command line as the usage message has it. -/
structure Line where
  globals : List Global
  tail : Tail

def Line.Ok (l : Line) : Prop := (∀ g ∈ l.globals, g.Ok) ∧ l.tail.Ok

def Line.words (l : Line) : List Bytes := l.globals.flatMap Global.words ++ l.tail.words

def Line.guile (l : Line) : List Bytes := l.globals.flatMap Global.guile

/-- What is asked for, in order. -/
def Line.asked (l : Line) : List Ask := l.globals.filterMap Global.asked

/-- An option as the usage message has it, or the beginning of one. -/
def Known (w : Bytes) : Prop :=
  (∃ a, (w, a) ∈ asks) ∨ w ∈ ones ∨ (∃ p ∈ withValue, p <+: w) ∨ w ∈ twos ∨ w ∈ scripts ∨ w = [45, 45]

end Scribbu.Spec.Main
