import Verif.Model.Frame23

/-!
# Threads that share a tag

What a frame of ID3v2.3 or 2.4 looks like when written is kept in members that are `mutable` and made by functions that are `const`
(`ensure_cached_data_is_fresh`: scribbu/framesv23.cc L149-250, with scribbu/framesv23.hh L304-313 and scribbu/framesv2.hh L401-434). Here are several
threads that call such functions of the frames of one tag. Nothing in the code orders what they do.

Simplified: the caches and the number of false syncs count as one object; memory is sequentially consistent (executions in which that could make a
difference have a race anyway). Not modelled: the caches of extended headers and of the frames of ID3v2.2, which are made in the same way.
-/

namespace Scribbu.Shared

/-- The calls: `serialized_size(unsync, last_no_pad)`, `needs_unsynchronisation(last_no_pad)`, `write(os, unsync)`, `crc(crc)`: scribbu/framesv23.cc L55-129. -/
inductive Ask where
  | size (unsync last : Bool)
  | needs (last : Bool)
  | write (unsync : Bool)
  | crc (c : Nat)
  deriving DecidableEq, Repr

/-- What comes back: a number, or the bytes that were written. -/
inductive Out where
  | num (n : Nat)
  | bytes (b : Bytes)
  deriving DecidableEq, Repr

/-- The argument of `ensure_cached_data_is_fresh`: scribbu/framesv23.cc L58, L82, L100, L124. -/
def Ask.last : Ask → Bool
  | .size _ l => l
  | .needs l => l
  | _ => false

/-- What is done with the caches, when they are fresh: scribbu/framesv23.cc L59, L83, L101, L125-127. -/
def Ask.answer (z : Zlib) (f : Frame4) : Ask → Out
  | .size u _ => .num (if u then f.unsynced else f.plain).length
  | .needs _ => .num f.nfs
  | .write u => .bytes (if u then f.unsynced else f.plain)
  | .crc c => .num (z.crc32 c f.plain)

/-- A call of a function of a frame of the tag. -/
structure Call where
  frame : Nat
  ask : Ask
  deriving DecidableEq, Repr

/-- Where a thread is in the call it is making: scribbu/framesv23.cc L149-250. -/
inductive Phase where
  | idle        -- L158: `if (is_dirty())`
  | clear       -- L161-162
  | fill        -- L164-245
  | settle      -- L247: `dirty(false)`
  | use         -- afterwards
  deriving DecidableEq, Repr

/-- A thread: the calls it has yet to make (the first of which it may be making) and what has come back so far. It ends with the first exception. -/
structure Thread where
  todo : List Call
  phase : Phase
  done : List (Res Out)
  deriving DecidableEq, Repr

/-- The objects that are touched: `dirty_`, and the caches with `num_false_syncs_`. -/
inductive Obj where
  | dirty | cache
  deriving DecidableEq, Repr

/-- An access. -/
structure Access where
  thread : Nat
  frame : Nat
  obj : Obj
  write : Bool
  deriving DecidableEq, Repr

/-- The frames of the tag, the threads, and the accesses so far. -/
structure State where
  frames : Nat → Option Frame4
  threads : Nat → Thread
  log : List Access

/-- At one index, something else. -/
def upd {α : Type} (f : Nat → α) (k : Nat) (a : α) : Nat → α := fun j => if j = k then a else f j

/-- The next thing that thread `i` does. -/
def step (z : Zlib) (ver : Ver) (i : Nat) (s : State) : State :=
  match (s.threads i).todo with
  | [] => s
  | c :: cs =>
    match s.frames c.frame with
    | none => { s with threads := upd s.threads i ⟨[], .idle, (s.threads i).done ++ [.ub .oobRead]⟩ }
    | some f =>
      match (s.threads i).phase with
      | .idle =>
        ⟨s.frames, upd s.threads i { s.threads i with phase := if f.dirty then .clear else .use }, s.log ++ [⟨i, c.frame, .dirty, false⟩]⟩
      | .clear =>
        ⟨upd s.frames c.frame (some { f with plain := [], unsynced := [] }), upd s.threads i { s.threads i with phase := .fill },
          s.log ++ [⟨i, c.frame, .cache, true⟩]⟩
      | .fill =>
        match { f with dirty := true }.fresh z ver c.ask.last with
        | .ok g =>
          ⟨upd s.frames c.frame (some { f with plain := g.plain, unsynced := g.unsynced, nfs := g.nfs }),
            upd s.threads i { s.threads i with phase := .settle }, s.log ++ [⟨i, c.frame, .cache, true⟩]⟩
        | .throw e => { s with threads := upd s.threads i ⟨[], .idle, (s.threads i).done ++ [.throw e]⟩ }
        | .ub u => { s with threads := upd s.threads i ⟨[], .idle, (s.threads i).done ++ [.ub u]⟩ }
      | .settle =>
        ⟨upd s.frames c.frame (some { f with dirty := false }), upd s.threads i { s.threads i with phase := .use },
          s.log ++ [⟨i, c.frame, .dirty, true⟩]⟩
      | .use =>
        ⟨s.frames, upd s.threads i ⟨cs, .idle, (s.threads i).done ++ [.ok (c.ask.answer z f)]⟩, s.log ++ [⟨i, c.frame, .cache, false⟩]⟩

/-- Threads that are about to begin. -/
def start (fs : List Frame4) (progs : Nat → List Call) : State := ⟨fun k => fs[k]?, fun i => ⟨progs i, .idle, []⟩, []⟩

/-- What happens if the threads take turns as the schedule says. -/
def run (z : Zlib) (ver : Ver) (sched : List Nat) (s : State) : State := sched.foldl (fun s i => step z ver i s) s

end Scribbu.Shared
