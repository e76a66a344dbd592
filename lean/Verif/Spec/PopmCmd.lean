import Verif.Model.PopmCmd
import Verif.Spec.Commands
import Verif.Spec.Bodies

/-! Independent specification of what the sub-command `popm` does. -/

namespace Scribbu.Spec
open Scribbu Commands Process

/-- The number of plays, from `n` so far: as given, or so many more. -/
def plays (o : PopmCfg) (n : Nat) : Nat := if o.absolute then o.count else n + o.count

/-- A play counter that the sub-command is to change. -/
def CountsPlays (c : Cfg) (o : PopmCfg) (x : Item) : Prop := x.id = c.cntId ∧ o.policy ≠ .popmOnly

/-- A popularimeter that the sub-command is to change: that of the owner, or any if no owner is given. -/
def Rates (c : Cfg) (o : PopmCfg) (x : Item) : Prop :=
  x.id = c.popId ∧ o.policy ≠ .pcntOnly ∧ ∃ e r k, x.data = e ++ 0 :: r :: k ∧ 0 ∉ e ∧ ∀ own, o.owner = some own → own = e

/-- A counter that takes no more bytes than it must, and at least one. -/
def Shortest (d : Bytes) : Prop := d ≠ [] ∧ ∀ d', d' ≠ [] → beNat d' = beNat d → d.length ≤ d'.length

/-- A frame before and after. -/
structure FramePlayed (c : Cfg) (o : PopmCfg) (x x' : Item) : Prop where
  id : x'.id = x.id
  cls : x'.cls = x.cls
  counts : CountsPlays c o x → beNat x'.data = plays o (beNat x.data) ∧ Shortest x'.data
  rates : Rates c o x → ∀ e r k, x.data = e ++ 0 :: r :: k → 0 ∉ e →
    ∃ r' k', x'.data = e ++ 0 :: r' :: k' ∧ beNat k' = plays o (beNat k) ∧ Shortest k' ∧ r' = (match o.rating with | some s => s | none => r)
  other : ¬ CountsPlays c o x → ¬ Rates c o x → x' = x

/-- Two lists of the same length, and a relation between what is at the same place. -/
def Pointwise {α β : Type} (R : α → β → Prop) (l : List α) (m : List β) : Prop :=
  l.length = m.length ∧ ∀ (i : Nat) x y, l[i]? = some x → m[i]? = some y → R x y

/-- Counters can be read: a play counter has one to four bytes, a popularimeter an owner in ASCII, a rating and one to four bytes. The
numbers of plays stay below 2⁶⁴. -/
structure Countable (c : Cfg) (o : PopmCfg) (x : Item) : Prop where
  pcnt : x.id = c.cntId → x.cls = .cnt ∧ x.data ≠ [] ∧ x.data.length ≤ 4
  popm : x.id = c.popId → x.cls = .pop ∧ ∃ e r k, x.data = e ++ 0 :: r :: k ∧ 0 ∉ e ∧ (e ≠ [] → o.email e = .ok e) ∧ k ≠ [] ∧ k.length ≤ 4

/-- The number of plays that a frame states. -/
def States (c : Cfg) (x : Item) (n : Nat) : Prop :=
  (x.id = c.cntId ∧ n = beNat x.data) ∨ (x.id = c.popId ∧ ∃ e r k, x.data = e ++ 0 :: r :: k ∧ 0 ∉ e ∧ n = beNat k)

/-- How many plays a new frame states: as many as one of the others and no fewer than any, or, if those state none, the number given. -/
def Best (c : Cfg) (o : PopmCfg) (l : List Item) (n : Nat) : Prop :=
  (n ≠ 0 ∧ (∃ x ∈ l, States c x n) ∧ ∀ x ∈ l, ∀ m, States c x m → m ≤ n) ∨ (n = o.count ∧ ∀ x ∈ l, ∀ m, States c x m → m = 0)

/-- A play counter is to be made: so asked, and there is none. -/
def NoCounter (c : Cfg) (o : PopmCfg) (create : Bool) (l : List Item) : Prop :=
  create = true ∧ o.policy ≠ .popmOnly ∧ ∀ x ∈ l, ¬ CountsPlays c o x

/-- A popularimeter is to be made: so asked, with an owner and a rating, and the owner has none. -/
def NoRating (c : Cfg) (o : PopmCfg) (create : Bool) (own : Bytes) (r : Byte) (l : List Item) : Prop :=
  create = true ∧ o.policy ≠ .pcntOnly ∧ o.owner = some own ∧ o.rating = some r ∧ ∀ x ∈ l, ¬ Rates c o x

/-- The frames `made` for a tag that had `l`, and has `l'` now. -/
structure Made (c : Cfg) (o : PopmCfg) (create : Bool) (l l' made : List Item) : Prop where
  split : ∃ p q, made = p ++ q ∧
    ((NoCounter c o create l ∧ ∃ d, Best c o l' (beNat d) ∧ Shortest d ∧ p = [⟨c.cntId, .cnt, d⟩]) ∨ (¬ NoCounter c o create l ∧ p = [])) ∧
    ((∃ own r k, NoRating c o create own r l ∧ Best c o l' (beNat k) ∧ Shortest k ∧ q = [⟨c.popId, .pop, own ++ 0 :: r :: k⟩]) ∨
      ((∀ own r, ¬ NoRating c o create own r l) ∧ q = []))

/-- What `popm` does to a tag: the frames there are changed as asked, frames are made as asked, and the tag is to be written if there
is a change. -/
structure Played (o : PopmCfg) (create : Bool) (t : Tg) (upd : Bool) (t' : Tg) : Prop where
  cfg : t'.cfg = t.cfg
  frames : ∃ l made, contents t'.tag = l ++ made ∧ Pointwise (FramePlayed t.cfg o) (contents t.tag) l ∧
    Made t.cfg o create (contents t.tag) l made ∧
    (upd = true ↔ made ≠ [] ∨ ∃ x ∈ contents t.tag, CountsPlays t.cfg o x ∨ Rates t.cfg o x)

/-- Frames as the standard has them: a play counter has at least one byte, a popularimeter an owner, a rating, and maybe a counter. -/
structure Lawful (c : Cfg) (o : PopmCfg) (x : Item) : Prop where
  pcnt : x.id = c.cntId → x.cls = .cnt ∧ x.data ≠ []
  popm : x.id = c.popId → x.cls = .pop ∧ ∃ e r k, x.data = e ++ 0 :: r :: k ∧ 0 ∉ e ∧ (e ≠ [] → o.email e = .ok e)

/-! ## Ratings -/

/-- The value of decimal digits. -/
def decVal : Bytes → Nat
  | [] => 0
  | c :: cs => (c.toNat - 48) * 10 ^ cs.length + decVal cs

/-- A text is a number in decimal. -/
def Decimal (b : Bytes) (n : Nat) : Prop := b ≠ [] ∧ (∀ c ∈ b, 48 ≤ c ∧ c ≤ 57) ∧ decVal b = n

/-- The ratings that one to five stars stand for: the table in the help text. -/
def stars : Nat → Option Byte
  | 1 => some 1
  | 2 => some 64
  | 3 => some 128
  | 4 => some 196
  | 5 => some 255
  | _ => none

/-- The characters that may be used for stars: letters and `@#%*+`. -/
def Star (c : Byte) : Prop := (97 ≤ c ∧ c ≤ 122) ∨ (65 ≤ c ∧ c ≤ 90) ∨ c ∈ [64, 35, 37, 42, 43]

/-- What a text says about the rating: a number up to 255, or a character one to five times. -/
def Rating (b : Bytes) (r : Byte) : Prop := Decimal b r.toNat ∨ ∃ c k, Star c ∧ b = List.replicate k c ∧ stars k = some r

/-! ## Options -/

/-- The options go together. -/
structure PopmOptsOk (o : PopmOpts) : Prop where
  frames : ¬ (o.playcountOnly = true ∧ o.popularimeterOnly = true)
  counts : ¬ (o.increment ≠ none ∧ o.count ≠ none)
  create : ¬ (o.createV2 = true ∧ o.alwaysV2 = true)

/-- What the options ask for. -/
structure PopmAsked (o : PopmOpts) (rating : Option Byte) (p : PopmCfg) : Prop where
  rating : p.rating = rating
  owner : p.owner = o.owner
  pcnt : p.policy ≠ .popmOnly ↔ o.popularimeterOnly = false
  popm : p.policy ≠ .pcntOnly ↔ o.playcountOnly = false
  absolute : p.absolute = true ↔ o.count ≠ none
  count : (∀ n, o.count = some n → p.count = n) ∧ (∀ n, o.increment = some n → p.count = n) ∧
    (o.count = none → o.increment = none → p.count = 1)
  createFrame : p.createFrame = o.createFrame
  dryRun : p.dryRun = o.dryRun

end Scribbu.Spec
