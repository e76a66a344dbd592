/-!
# Outcomes of C++ code

Shared vocabulary of the model. Nothing here models a particular function of
`/repo`; it fixes how C++ outcomes are represented:

* `Res.ok a`     — the call returned `a`;
* `Res.throw e`  — the call left by an exception of kind `e`;
* `Res.ub u`     — the call executed undefined behaviour of kind `u`.
-/

namespace Scribbu

/-- A byte (`unsigned char`). -/
abbrev Byte := UInt8

/-- A byte string / buffer. -/
abbrev Bytes := List UInt8

/-- Kinds of C++ exceptions the modelled code throws. Only the kind is kept;
messages and the "offset"/"frame" data members are dropped. -/
inductive Exc where
  | invalidArgument   -- std::invalid_argument
  | runtimeError      -- std::runtime_error
  | rangeError        -- std::range_error
  | domainError       -- std::domain_error
  | outOfRange        -- std::out_of_range
  | logicError        -- std::logic_error
  | streamFailure     -- std::ios_base::failure
  | invalidTag        -- scribbu::id3v1_tag::invalid_tag / id3v2_tag::invalid_tag
  | noTag             -- id3v2_tag::no_tag
  | unknownVersion    -- id3v2_tag::unknown_version
  | unknownFrame      -- unknown_frame_error
  | mp3Error          -- mp3_audio_frame::error
  | missing           -- tbt_support: requested field not available
  | tagsetRequest     -- invalid_tagset_request
  | fsError           -- std::system_error / std::filesystem::filesystem_error
  | other             -- anything else derived from std::exception
  deriving DecidableEq, Repr

/-- Kinds of undefined behaviour that are tracked. -/
inductive UB where
  | oobRead           -- read outside the bounds of an object/buffer
  | oobWrite          -- write outside the bounds of an object/buffer
  | uninit            -- read of an uninitialised object
  | divZero           -- integer division by zero
  | nullDeref         -- dereference of a null pointer
  | afterMove         -- dereference of a moved-from smart pointer
  | emptyContainer    -- front()/back() of an empty container
  | noProgress        -- a loop without side effects that never ends
  | badIterator       -- erase(end()) or dereference of end()
  | dangling          -- dereference of a pointer to a destroyed object
  | overflow          -- a signed result out of range
  deriving DecidableEq, Repr

/-- The outcome of a C++ call. -/
inductive Res (α : Type u) where
  | ok (a : α)
  | throw (e : Exc)
  | ub (u : UB)
  deriving DecidableEq, Repr

namespace Res

/-- Sequencing: exceptions and UB propagate. -/
@[inline] def bind {α : Type u} {β : Type v} (r : Res α) (f : α → Res β) : Res β :=
  match r with
  | ok a => f a
  | throw e => throw e
  | ub u => ub u

instance : Monad Res where
  pure := Res.ok
  bind := Res.bind

@[simp] theorem pure_eq {α : Type u} (a : α) : (pure a : Res α) = ok a := rfl
@[simp] theorem bind_eq {α β : Type u} (r : Res α) (f : α → Res β) : (r >>= f) = r.bind f := rfl
@[simp] theorem ok_bind {α : Type u} {β : Type v} (a : α) (f : α → Res β) : (ok a).bind f = f a := rfl
@[simp] theorem throw_bind {α : Type u} {β : Type v} (e : Exc) (f : α → Res β) :
    (throw e : Res α).bind f = throw e := rfl
@[simp] theorem ub_bind {α : Type u} {β : Type v} (e : UB) (f : α → Res β) :
    (ub e : Res α).bind f = ub e := rfl
@[simp] theorem map_eq {α β : Type u} (r : Res α) (f : α → β) :
    (f <$> r) = r.bind (fun a => ok (f a)) := by cases r <;> rfl

theorem bind_eq_ok {α : Type u} {β : Type v} {r : Res α} {f : α → Res β} {b : β} :
    r.bind f = ok b ↔ ∃ a, r = ok a ∧ f a = ok b := by
  cases r <;> simp

/-- The call did not execute undefined behaviour. -/
def safe {α : Type u} : Res α → Prop
  | ub _ => False
  | _ => True

instance {α : Type u} (r : Res α) : Decidable r.safe := by
  cases r <;> unfold safe <;> infer_instance

@[simp] theorem safe_ok {α : Type u} (a : α) : (ok a).safe := trivial
@[simp] theorem safe_throw {α : Type u} (e : Exc) : (throw e : Res α).safe := trivial
@[simp] theorem not_safe_ub {α : Type u} (e : UB) : ¬ (ub e : Res α).safe := fun h => h

theorem safe_iff {α : Type u} (r : Res α) : r.safe ↔ ∀ u, r ≠ ub u := by
  cases r <;> simp [safe]

end Res

/-- A bounds-checked read `p[i]` from a buffer: outside the buffer it is UB. -/
def rd (p : Bytes) (i : Nat) : Res Byte :=
  match p[i]? with
  | some b => .ok b
  | none => .ub .oobRead

/-- A bounds-checked write `p[i] = b`: outside the buffer it is UB. -/
def wr (p : Bytes) (i : Nat) (b : Byte) : Res Bytes :=
  if i < p.length then .ok (p.set i b) else .ub .oobWrite

theorem rd_ok {p : Bytes} {i : Nat} (h : i < p.length) : rd p i = .ok p[i] := by
  simp [rd, h]

theorem wr_ok {p : Bytes} {i : Nat} {b : Byte} (h : i < p.length) : wr p i b = .ok (p.set i b) := by
  simp [wr, h]

end Scribbu
