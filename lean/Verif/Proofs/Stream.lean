import Verif.Model.Stream

namespace Scribbu.SM

variable {α β : Type}

@[simp] theorem pure_apply (a : α) (s : IStream) : (pure a : SM α) s = (.ok a, s) := rfl
@[simp] theorem pure_apply' (a : α) (s : IStream) : (Pure.pure a : SM α) s = (.ok a, s) := rfl

@[simp] theorem bind_apply (x : SM α) (f : α → SM β) (s : IStream) :
    (x >>= f) s = match x s with
      | (.ok a, s') => f a s'
      | (.throw e, s') => (.throw e, s')
      | (.ub u, s') => (.ub u, s') := rfl

@[simp] theorem throw_apply (e : Exc) (s : IStream) : (throw e : SM α) s = (.throw e, s) := rfl
@[simp] theorem ub_apply (e : UB) (s : IStream) : (ub e : SM α) s = (.ub e, s) := rfl
@[simp] theorem lift_apply (r : Res α) (s : IStream) : lift r s = (r, s) := rfl
@[simp] theorem exceptions_apply (s : IStream) : exceptions s = (.ok s.mask, s) := rfl
@[simp] theorem clear_apply (s : IStream) : clear s = (.ok (), { s with st := IoBits.none }) := rfl

@[simp] theorem meets_none (m : IoBits) : IoBits.none.meets m = false := by
  simp [IoBits.none, IoBits.meets]
@[simp] theorem meets_none' (m : IoBits) : m.meets IoBits.none = false := by
  simp [IoBits.none, IoBits.meets]

@[simp] theorem setExceptions_good (d : Bytes) (p : Nat) (m0 m : IoBits) :
    setExceptions m ⟨d, p, m0, IoBits.none⟩ = (.ok (), ⟨d, p, m, IoBits.none⟩) := by
  simp [setExceptions]

@[simp] theorem setExceptions_none (d : Bytes) (p : Nat) (m0 st : IoBits) :
    setExceptions IoBits.none ⟨d, p, m0, st⟩ = (.ok (), ⟨d, p, IoBits.none, st⟩) := by
  simp [setExceptions]

@[simp] theorem tellg_good (d : Bytes) (p : Nat) (m : IoBits) :
    tellg ⟨d, p, m, IoBits.none⟩ = (.ok (p : Int), ⟨d, p, m, IoBits.none⟩) := by
  simp [tellg]

theorem seekAbs_good {n : Int} (d : Bytes) (p : Nat) (m : IoBits) (h : 0 ≤ n) :
    seekAbs n ⟨d, p, m, IoBits.none⟩ = (.ok (), ⟨d, n.toNat, m, IoBits.none⟩) := by
  simp [seekAbs, IoBits.none]; omega

@[simp] theorem seekBeg_nat (n : Nat) (d : Bytes) (p : Nat) (m : IoBits) :
    seekBeg (n : Int) ⟨d, p, m, IoBits.none⟩ = (.ok (), ⟨d, n, m, IoBits.none⟩) := by
  simp [seekBeg, seekAbs_good d p m (Int.natCast_nonneg n)]

@[simp] theorem seekEnd_zero (d : Bytes) (p : Nat) (m : IoBits) :
    seekEnd 0 ⟨d, p, m, IoBits.none⟩ = (.ok (), ⟨d, d.length, m, IoBits.none⟩) := by
  simp [seekEnd, seekAbs_good d p m (Int.natCast_nonneg d.length)]

theorem seekEnd_neg (k : Nat) (d : Bytes) (p : Nat) (m : IoBits) (h : k ≤ d.length) :
    seekEnd (-(k : Int)) ⟨d, p, m, IoBits.none⟩ = (.ok (), ⟨d, d.length - k, m, IoBits.none⟩) := by
  have : (0 : Int) ≤ (d.length : Int) + -(k : Int) := by omega
  simp only [seekEnd, seekAbs_good d p m this]
  congr 2; omega

theorem seekEnd_fail_throw (k : Nat) (d : Bytes) (p : Nat) (m : IoBits) (h : d.length < k)
    (hm : m.fail = true) :
    seekEnd (-(k : Int)) ⟨d, p, m, IoBits.none⟩ =
      (.throw .streamFailure, ⟨d, p, m, ⟨false, true, false⟩⟩) := by
  have : (d.length : Int) + -(k : Int) < 0 := by omega
  simp [seekEnd, seekAbs, IoBits.none, this, setState, IoBits.or, IoBits.meets, hm]

theorem read_full (n : Nat) (d : Bytes) (p : Nat) (m : IoBits) (h : p + n ≤ d.length) :
    read n ⟨d, p, m, IoBits.none⟩ =
      (.ok ((d.drop p).take n), ⟨d, p + n, m, IoBits.none⟩) := by
  have : ((d.drop p).take n).length = n := by simp; omega
  simp only [read, this, if_true]

theorem read_short (n : Nat) (d : Bytes) (p : Nat) (m : IoBits) (h : d.length < p + n)
    (hn : 0 < n) (hm : m.fail = true) :
    ∃ p', read n ⟨d, p, m, IoBits.none⟩ =
      (.throw .streamFailure, ⟨d, p', m, ⟨true, true, false⟩⟩) := by
  have : ((d.drop p).take n).length ≠ n := by simp; omega
  refine ⟨p + ((d.drop p).take n).length, ?_⟩
  simp only [read, if_true, this, if_false]
  simp [setState, IoBits.or, IoBits.none, IoBits.meets, hm]

@[simp] theorem attempt_ok {x : SM α} {s s' : IStream} {a : α} (h : x s = (.ok a, s')) :
    attempt x s = (.ok (some a), s') := by simp [attempt, h]

theorem attempt_fail {x : SM α} {s s' : IStream} (h : x s = (.throw .streamFailure, s')) :
    attempt x s = (.ok Option.none, s') := by simp [attempt, h]

theorem attempt_throw {x : SM α} {s s' : IStream} {e : Exc} (h : x s = (.throw e, s'))
    (he : e ≠ .streamFailure) :
    attempt x s = (.throw e, s') := by
  simp only [attempt, h]

theorem bind_ok {x : SM α} {f : α → SM β} {s s' : IStream} {a : α} (h : x s = (.ok a, s')) :
    (x >>= f) s = f a s' := by simp [h]

theorem bind_throw {x : SM α} {f : α → SM β} {s s' : IStream} {e : Exc}
    (h : x s = (.throw e, s')) : (x >>= f) s = (.throw e, s') := by simp [h]

theorem bind_assoc {γ : Type} (x : SM α) (f : α → SM β) (g : β → SM γ) :
    (x >>= f) >>= g = x >>= fun a => f a >>= g := by
  funext s
  simp only [bind_apply]
  rcases x s with ⟨_ | _ | _, _⟩ <;> rfl

end Scribbu.SM
