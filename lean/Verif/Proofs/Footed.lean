import Verif.Proofs.Sections
import Verif.Spec.Footed

/-! # Where reading the tags of a file ends if the last one has a footer -/

namespace Scribbu.Footed
open Scribbu Spec Sections

/-- Where no header is any more, if a tag is its header and what this announces. -/
inductive Stops : Bytes → Nat → Prop
  | none {d} : (∀ v r f n, ¬ IsHeader d v r f n) → Stops d 0
  | tag {d v r f n k} : IsHeader d v r f n → Stops (d.drop (10 + n)) k → Stops d (10 + n + k)

theorem stops {d : Bytes} {k : Nat} (h : FootedAt d k) : Stops d k := by
  induction h with
  | last h1 _ h3 =>
    refine .tag h1 (.none ?_)
    obtain ⟨v, r, f, s0, s1, s2, s3, rest, e, _⟩ := h3
    rintro v' r' f' n' ⟨a0, a1, a2, a3, rest', e', _⟩
    rw [e] at e'
    simp at e'
  | tag h1 _ _ ih => exact .tag h1 ih

/-- Reading all tags ends there. -/
theorem readAll_stops {α : Type} {R : Byte × Byte → α → Prop} {mk2 mk3 mk4 : Id3v2Info → SM α} (h2 : Reads R 2 mk2) (h3 : Reads R 3 mk3) (h4 : Reads R 4 mk4)
    {d : Bytes} {m : IoBits} {fuel : Nat} {ts : List α} {s : IStream} {p : Nat} {c : Bytes} {k : Nat} (hc : c = d.drop p) (hto : Stops c k)
    (hr : readAllId3v2 mk2 mk3 mk4 fuel ⟨d, p, m, IoBits.none⟩ = (.ok (some ts), s)) :
    s = ⟨d, p + k, m, IoBits.none⟩ := by
  induction hto generalizing fuel ts p s with
  | none hn =>
    subst hc
    cases fuel with
    | zero => exact absurd hr (by simp [readAllId3v2, Pure.pure, SM.pure])
    | succ fuel =>
      unfold readAllId3v2 at hr
      obtain ⟨o, s1, k1, k2⟩ := sm_bind_ok hr
      unfold maybeReadId3v2 at k1
      obtain ⟨o', e1, e2⟩ := _root_.Scribbu.lookingAt_spec d p m false
      have : o' = none := by
        cases o' with
        | none => rfl
        | some x => exact absurd ((e2 x.version x.revision x.flags x.size).1 rfl) (hn _ _ _ _)
      subst this
      rw [SM.bind_ok e1] at k1
      have k1 : (Res.ok none, _) = (Res.ok o, s1) := k1
      simp only [Prod.mk.injEq, Res.ok.injEq] at k1
      obtain ⟨rfl, rfl⟩ := k1
      have k2 : (Res.ok (some []), _) = (Res.ok (some ts), s) := k2
      simp only [Prod.mk.injEq, Res.ok.injEq, Option.some.injEq] at k2
      obtain ⟨rfl, rfl⟩ := k2
      simp
  | @tag c v r f n k hh _ ih =>
    subst hc
    cases fuel with
    | zero => exact absurd hr (by simp [readAllId3v2, Pure.pure, SM.pure])
    | succ fuel =>
      unfold readAllId3v2 at hr
      obtain ⟨o, s1, k1, k2⟩ := sm_bind_ok hr
      unfold maybeReadId3v2 at k1
      obtain ⟨o', e1, e2⟩ := _root_.Scribbu.lookingAt_spec d p m false
      have : o' = some ⟨v, r, f, n⟩ := (e2 v r f n).2 hh
      subst this
      rw [SM.bind_ok e1] at k1
      simp only [Option.isSome_some, Bool.not_false, Bool.and_self, if_true] at k1
      obtain ⟨a, s2, k3, k4⟩ := sm_bind_ok k1
      have key : s2 = ⟨d, p + 10 + n, m, IoBits.none⟩ ∧ R (v, r) a := by
        unfold mkId3v2 at k3
        split at k3
        · rename_i hv
          exact h2 ⟨v, r, f, n⟩ _ _ _ _ _ hv k3
        · split at k3
          · rename_i hv
            exact h3 ⟨v, r, f, n⟩ _ _ _ _ _ hv k3
          · split at k3
            · rename_i hv
              exact h4 ⟨v, r, f, n⟩ _ _ _ _ _ hv k3
            · simp [SM.throw] at k3
      obtain ⟨rfl, hR⟩ := key
      have k4 : (Res.ok (some a), _) = (Res.ok o, s1) := k4
      simp only [Prod.mk.injEq, Res.ok.injEq] at k4
      obtain ⟨rfl, rfl⟩ := k4
      obtain ⟨ts', s3, k5, k6⟩ := sm_bind_ok k2
      have k7 : (Res.ok (ts'.map (a :: ·)), s3) = (Res.ok (some ts), s) := k6
      clear k6
      simp only [Prod.mk.injEq, Res.ok.injEq] at k7
      obtain ⟨k7, rfl⟩ := k7
      cases ts' with
      | none => simp at k7
      | some l =>
        simp only [Option.map_some, Option.some.injEq] at k7
        subst k7
        have g1 := ih (p := p + 10 + n) (by rw [List.drop_drop, Nat.add_assoc]) k5
        rw [g1]
        simp only [IStream.mk.injEq, and_true, true_and]
        omega

end Scribbu.Footed
