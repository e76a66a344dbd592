import Verif.Spec.Sections
import Verif.Props.Track
import Verif.Proofs.StdRead
import Verif.Proofs.Header

/-! The parts of a file, and where reading leaves the stream. -/

namespace Scribbu.Sections
open Scribbu Spec

/-- A constructor that reads as many bytes as the header says, if it succeeds; what it gives is related to version and revision. -/
def Reads {α : Type} (R : Byte × Byte → α → Prop) (w : Byte) (mk : Id3v2Info → SM α) : Prop :=
  ∀ (h : Id3v2Info) (d : Bytes) (p : Nat) (m : IoBits) (a : α) (s : IStream), h.version = w → mk h ⟨d, p, m, IoBits.none⟩ = (.ok a, s) →
    s = ⟨d, p + h.size, m, IoBits.none⟩ ∧ R (h.version, h.revision) a

/-- Reading a block with exceptions on. -/
def block {α : Type} (size : Nat) (f : Bytes → Res α) : SM α := do
  let excMask ← SM.exceptions
  SM.setExceptions IoBits.all
  let here ← SM.tellg
  let r ← SM.onThrow
    (do
      let buf ← SM.read size
      SM.lift (f buf))
    (do
      SM.seekBeg here
      SM.setExceptions excMask)
  SM.setExceptions excMask
  pure r

theorem not_ok_throw {α : Type} {h : SM Unit} {e : Exc} {s s' s1 : IStream} {a : α} {x : SM α} (hx : x s = (.throw e, s1))
    (k : SM.onThrow x h s = (.ok a, s')) : False := by
  unfold SM.onThrow at k
  rw [hx] at k
  simp only at k
  split at k <;> simp at k

theorem block_end {α : Type} {size : Nat} {f : Bytes → Res α} {d : Bytes} {p : Nat} {m : IoBits} {a : α} {s : IStream}
    (h : block size f ⟨d, p, m, IoBits.none⟩ = (.ok a, s)) : s = ⟨d, p + size, m, IoBits.none⟩ := by
  unfold block at h
  rw [SM.bind_ok (SM.exceptions_apply _), SM.bind_ok (SM.setExceptions_good _ _ _ _), SM.bind_ok (SM.tellg_good _ _ _)] at h
  by_cases hl : p + size ≤ d.length ∨ size = 0
  · have hr : SM.read size ⟨d, p, IoBits.all, IoBits.none⟩ = (.ok ((d.drop p).take size), ⟨d, p + size, IoBits.all, IoBits.none⟩) := by
      rcases hl with hl | rfl
      · exact SM.read_full _ _ _ _ hl
      · simp [SM.read]
    cases hb : f ((d.drop p).take size) with
    | ok b =>
      have e : (do let buf ← SM.read size; SM.lift (f buf) : SM α) ⟨d, p, IoBits.all, IoBits.none⟩ = (.ok b, ⟨d, p + size, IoBits.all, IoBits.none⟩) := by
        rw [SM.bind_ok hr, SM.lift_apply, hb]
      have e' : SM.onThrow (do let buf ← SM.read size; SM.lift (f buf) : SM α) (do SM.seekBeg (p : Int); SM.setExceptions m) ⟨d, p, IoBits.all, IoBits.none⟩ =
          (.ok b, ⟨d, p + size, IoBits.all, IoBits.none⟩) := by
        unfold SM.onThrow
        rw [e]
      rw [SM.bind_ok e', SM.bind_ok (SM.setExceptions_good _ _ _ _)] at h
      have h : (Res.ok b, _) = (Res.ok a, s) := h
      exact ((Prod.mk.injEq ..).mp h).2.symm
    | throw x =>
      exfalso
      have e : (do let buf ← SM.read size; SM.lift (f buf) : SM α) ⟨d, p, IoBits.all, IoBits.none⟩ = (.throw x, ⟨d, p + size, IoBits.all, IoBits.none⟩) := by
        rw [SM.bind_ok hr, SM.lift_apply, hb]
      rw [SM.bind_apply] at h
      split at h
      next a' s' he => exact not_ok_throw e he
      next => simp at h
      next => simp at h
    | ub x =>
      exfalso
      have e : (do let buf ← SM.read size; SM.lift (f buf) : SM α) ⟨d, p, IoBits.all, IoBits.none⟩ = (.ub x, ⟨d, p + size, IoBits.all, IoBits.none⟩) := by
        rw [SM.bind_ok hr, SM.lift_apply, hb]
      have e' : SM.onThrow (do let buf ← SM.read size; SM.lift (f buf) : SM α) (do SM.seekBeg (p : Int); SM.setExceptions m) ⟨d, p, IoBits.all, IoBits.none⟩ =
          (.ub x, ⟨d, p + size, IoBits.all, IoBits.none⟩) := by
        unfold SM.onThrow
        rw [e]
      rw [SM.bind_apply, e'] at h
      simp at h
  · exfalso
    obtain ⟨p', hr⟩ := SM.read_short size d p IoBits.all (by omega) (by omega) rfl
    have e : (do let buf ← SM.read size; SM.lift (f buf) : SM α) ⟨d, p, IoBits.all, IoBits.none⟩ = (.throw .streamFailure, ⟨d, p', IoBits.all, ⟨true, true, false⟩⟩) := by
      rw [SM.bind_throw hr]
    rw [SM.bind_apply] at h
    split at h
    next a' s' he => exact not_ok_throw e he
    next => simp at h
    next => simp at h

theorem sm_bind_ok {α β : Type} {x : SM α} {f : α → SM β} {s s' : IStream} {b : β} (h : (x >>= f) s = (.ok b, s')) :
    ∃ a s1, x s = (.ok a, s1) ∧ f a s1 = (.ok b, s') := by
  rw [SM.bind_apply] at h
  split at h
  next a s1 e => exact ⟨a, s1, e, h⟩
  next => simp at h
  next => simp at h

theorem reads_map {α β : Type} {R : Byte × Byte → α → Prop} {Q : Byte × Byte → β → Prop} {w : Byte} {mk : Id3v2Info → SM α} {g : Id3v2Info → α → β}
    (h : Reads R w mk) (k : ∀ h a, h.version = w → R (h.version, h.revision) a → Q (h.version, h.revision) (g h a)) :
    Reads Q w (fun h => mk h >>= fun t => pure (g h t)) := by
  intro i d p m b s hw e
  obtain ⟨a, s1, h1, h2⟩ := sm_bind_ok e
  obtain ⟨rfl, h3⟩ := h i d p m a s1 hw h1
  have h2 : (Res.ok (g i a), _) = (Res.ok b, s) := h2
  simp only [Prod.mk.injEq, Res.ok.injEq] at h2
  exact ⟨h2.2.symm, h2.1 ▸ k i a hw h3⟩

theorem reads22 : Reads (fun _ _ => True) 2 Tag22.read := by
  intro h d p m a s _ e
  unfold Tag22.read at e
  obtain ⟨r, s1, h1, h2⟩ := sm_bind_ok e
  have h1 : block h.size (Tag22.parseBuf (decide (h.flags &&& 0x80 ≠ 0))) ⟨d, p, m, IoBits.none⟩ = (.ok r, s1) := h1
  have := block_end h1
  subst this
  have h2 : (Res.ok _, _) = (Res.ok a, s) := h2
  exact ⟨((Prod.mk.injEq ..).mp h2).2.symm, trivial⟩

theorem reads23 (z : Zlib) : Reads (fun _ _ => True) 3 (Tag23.read z) := by
  intro h d p m a s _ e
  unfold Tag23.read at e
  obtain ⟨r, s1, h1, h2⟩ := sm_bind_ok e
  have h1 : block h.size (Tag23.parseBuf z (decide (h.flags &&& 0x80 ≠ 0)) (decide (h.flags &&& 0x40 ≠ 0))) ⟨d, p, m, IoBits.none⟩ = (.ok r, s1) := h1
  have := block_end h1
  subst this
  have h2 : (Res.ok _, _) = (Res.ok a, s) := h2
  exact ⟨((Prod.mk.injEq ..).mp h2).2.symm, trivial⟩

theorem reads24 (z : Zlib) : Reads (fun _ _ => True) 4 (Tag24.read z) := by
  intro h d p m a s _ e
  unfold Tag24.read at e
  obtain ⟨r, s1, h1, h2⟩ := sm_bind_ok e
  have h1 : block h.size (Tag24.parseBuf z (decide (h.flags &&& 0x40 ≠ 0))) ⟨d, p, m, IoBits.none⟩ = (.ok r, s1) := h1
  have := block_end h1
  subst this
  have h2 : (Res.ok _, _) = (Res.ok a, s) := h2
  exact ⟨((Prod.mk.injEq ..).mp h2).2.symm, trivial⟩

theorem header_unique {d : Bytes} {v r f v' r' f' : Byte} {n n' : Nat} (h : IsHeader d v r f n) (h' : IsHeader d v' r' f' n') :
    v = v' ∧ r = r' ∧ f = f' ∧ n = n' := by
  obtain ⟨a, b, c, e, t, rfl, _, _, _, rfl⟩ := h
  obtain ⟨a', b', c', e', t', h, _, _, _, rfl⟩ := h'
  simp only [List.cons_append, List.nil_append, List.cons.injEq] at h
  obtain ⟨_, _, _, rfl, rfl, rfl, rfl, rfl, rfl, rfl, _⟩ := h
  exact ⟨rfl, rfl, rfl, rfl⟩

/-- Reading all tags ends where the tags end, if they have no footers. -/
theorem readAll_end {α : Type} {R : Byte × Byte → α → Prop} {mk2 mk3 mk4 : Id3v2Info → SM α} (h2 : Reads R 2 mk2) (h3 : Reads R 3 mk3) (h4 : Reads R 4 mk4)
    {d : Bytes} {m : IoBits} {fuel : Nat} {ts : List α} {s : IStream} {p : Nat} {c : Bytes} {hs : List (Byte × Byte)} {k : Nat} (hc : c = d.drop p) (hto : TagsTo c hs k)
    (hnf : NoFooter c) (hr : readAllId3v2 mk2 mk3 mk4 fuel ⟨d, p, m, IoBits.none⟩ = (.ok (some ts), s)) :
    s = ⟨d, p + k, m, IoBits.none⟩ ∧ Each R hs ts := by
  induction hto generalizing fuel ts p s with
  | none hn =>
    subst hc
    cases fuel with
    | zero => exact absurd hr (by simp [readAllId3v2, Pure.pure, SM.pure])
    | succ fuel =>
      unfold readAllId3v2 at hr
      obtain ⟨o, s1, k1, k2⟩ := sm_bind_ok hr
      unfold maybeReadId3v2 at k1
      obtain ⟨o', e1, e2⟩ := _root_.Scribbu.lookingAt_spec d p m false
      have : o' = none := by
        cases o' with
        | none => rfl
        | some x => exact absurd ((e2 x.version x.revision x.flags x.size).1 rfl) (hn _ _ _ _)
      subst this
      rw [SM.bind_ok e1] at k1
      have k1 : (Res.ok none, _) = (Res.ok o, s1) := k1
      simp only [Prod.mk.injEq, Res.ok.injEq] at k1
      obtain ⟨rfl, rfl⟩ := k1
      have k2 : (Res.ok (some []), _) = (Res.ok (some ts), s) := k2
      simp only [Prod.mk.injEq, Res.ok.injEq, Option.some.injEq] at k2
      obtain ⟨rfl, rfl⟩ := k2
      exact ⟨by simp, .nil⟩
  | @tag c v r f n hs k hh _ ih =>
    subst hc
    cases fuel with
    | zero => exact absurd hr (by simp [readAllId3v2, Pure.pure, SM.pure])
    | succ fuel =>
      have hsp : tagSpan v f n = 10 + n ∧ NoFooter (List.drop (10 + n) (d.drop p)) := by
        cases hnf with
        | none hn => exact absurd hh (hn _ _ _ _)
        | tag g1 g2 g3 =>
          obtain ⟨rfl, rfl, rfl, rfl⟩ := header_unique hh g1
          refine ⟨?_, g3⟩
          unfold tagSpan
          rw [if_neg (fun x => x.2 (g2 x.1)), Nat.add_zero]
      obtain ⟨hsp, hnf⟩ := hsp
      rw [hsp] at ih ⊢
      unfold readAllId3v2 at hr
      obtain ⟨o, s1, k1, k2⟩ := sm_bind_ok hr
      unfold maybeReadId3v2 at k1
      obtain ⟨o', e1, e2⟩ := _root_.Scribbu.lookingAt_spec d p m false
      have : o' = some ⟨v, r, f, n⟩ := (e2 v r f n).2 hh
      subst this
      rw [SM.bind_ok e1] at k1
      simp only [Option.isSome_some, Bool.not_false, Bool.and_self, if_true] at k1
      obtain ⟨a, s2, k3, k4⟩ := sm_bind_ok k1
      have key : s2 = ⟨d, p + 10 + n, m, IoBits.none⟩ ∧ R (v, r) a := by
        unfold mkId3v2 at k3
        split at k3
        · rename_i hv
          exact h2 ⟨v, r, f, n⟩ _ _ _ _ _ hv k3
        · split at k3
          · rename_i hv
            exact h3 ⟨v, r, f, n⟩ _ _ _ _ _ hv k3
          · split at k3
            · rename_i hv
              exact h4 ⟨v, r, f, n⟩ _ _ _ _ _ hv k3
            · simp [SM.throw] at k3
      obtain ⟨rfl, hR⟩ := key
      have k4 : (Res.ok (some a), _) = (Res.ok o, s1) := k4
      simp only [Prod.mk.injEq, Res.ok.injEq] at k4
      obtain ⟨rfl, rfl⟩ := k4
      obtain ⟨ts', s3, k5, k6⟩ := sm_bind_ok k2
      have k7 : (Res.ok (ts'.map (a :: ·)), s3) = (Res.ok (some ts), s) := k6
      clear k6
      simp only [Prod.mk.injEq, Res.ok.injEq] at k7
      obtain ⟨k7, rfl⟩ := k7
      cases ts' with
      | none => simp at k7
      | some l =>
        simp only [Option.map_some, Option.some.injEq] at k7
        subst k7
        obtain ⟨g1, g2⟩ := ih (p := p + 10 + n) (by rw [List.drop_drop, Nat.add_assoc]) (by simpa [List.drop_drop, Nat.add_assoc] using hnf) k5
        refine ⟨?_, .cons hR g2⟩
        rw [g1]
        simp only [IStream.mk.injEq, and_true, true_and]
        omega

/-- The ID3v1 tag that is read is the end of the file. -/
theorem v1_end {d : Bytes} {p e : Nat} {m : IoBits} {o : Option V1Tag} {s : IStream} (he : Props.TrackEnd d e)
    (h : processId3v1 ⟨d, p, m, IoBits.none⟩ = (.ok o, s)) :
    (o = none ∧ d.drop e = []) ∨ ∃ t, o = some t ∧ t.write = .ok (d.drop e) := by
  unfold processId3v1 at h
  rw [SM.bind_ok (endsInId3v1_spec d p m)] at h
  have hst := Props.trackEnd_findV1 he
  have hsplit : d = d.take e ++ d.drop e := (List.take_append_drop _ _).symm
  have hk : SM.seekBeg (findV1 d).start ⟨d, p, m, IoBits.none⟩ = (.ok (), ⟨d, e, m, IoBits.none⟩) := by
    rw [← hst, SM.seekBeg_nat]
  rcases he with he | ⟨h1, he⟩ | ⟨h1, h2, rfl⟩
  · right
    obtain ⟨hn, h355⟩ := extAt_pos he
    have ht : (findV1 d).type ≠ .none := by
      unfold findV1
      rw [if_pos ⟨e, he⟩]
      simp
    rw [if_pos ht, SM.bind_ok hk] at h
    obtain ⟨t, s1, g1, g2⟩ := sm_bind_ok h
    have g2 : (Res.ok (some t), s1) = (Res.ok o, s) := g2
    simp only [Prod.mk.injEq, Res.ok.injEq] at g2
    obtain ⟨rfl, rfl⟩ := g2
    refine ⟨t, rfl, ?_⟩
    have hos := ofStream_355 (d.take e) (d.drop e) m (by rw [List.length_drop]; omega)
    rw [← hsplit, show (d.take e).length = e by rw [List.length_take]; omega, g1] at hos
    obtain ⟨_, hm⟩ := (extAt_iff d).1 ⟨e, he⟩
    rw [← hn] at hm
    by_cases hm2 : ((d.drop e).drop 227).take 3 = TAG
    · obtain ⟨t', i1, i2, _⟩ := initExtended_write (p := d.drop e) (by rw [List.length_drop]; omega) hm hm2
      rw [i1] at hos
      simp only [Prod.mk.injEq, Res.ok.injEq] at hos
      rw [hos.1]
      exact i2
    · have i1 := initExtended_bad (p := d.drop e) (by rw [List.length_drop]; omega) hm hm2
      rw [i1] at hos
      simp at hos
  · right
    obtain ⟨hn, h128⟩ := stdAt_pos he
    have ht : (findV1 d).type ≠ .none := by
      unfold findV1
      rw [if_neg h1, if_pos ⟨e, he⟩]
      simp
    rw [if_pos ht, SM.bind_ok hk] at h
    obtain ⟨t, s1, g1, g2⟩ := sm_bind_ok h
    have g2 : (Res.ok (some t), s1) = (Res.ok o, s) := g2
    simp only [Prod.mk.injEq, Res.ok.injEq] at g2
    obtain ⟨rfl, rfl⟩ := g2
    refine ⟨t, rfl, ?_⟩
    have hos := ofStream_128 (d.take e) (d.drop e) m (by rw [List.length_drop]; omega)
    rw [← hsplit, show (d.take e).length = e by rw [List.length_take]; omega, g1] at hos
    obtain ⟨_, hm⟩ := (stdAt_iff d).1 ⟨e, he⟩
    rw [← hn] at hm
    obtain ⟨t', i1, i2, _⟩ := initStandard_write (p := d.drop e) (by rw [List.length_drop]; omega) hm
    rw [i1] at hos
    simp only [Prod.mk.injEq, Res.ok.injEq] at hos
    rw [hos.1]
    exact i2
  · left
    have ht : ¬ (findV1 d).type ≠ .none := by
      unfold findV1
      rw [if_neg h1, if_neg h2]
      simp
    rw [if_neg ht] at h
    have h : (Res.ok none, _) = (Res.ok o, s) := h
    simp only [Prod.mk.injEq, Res.ok.injEq] at h
    exact ⟨h.1.symm, by simp⟩

theorem track_end {d : Bytes} {p e fuel : Nat} {m : IoBits} {td : TrackData} {s : IStream} (he : Props.TrackEnd d e) (hp : p ≤ e) (hf : d.length < fuel)
    (h : trackData fuel ⟨d, p, m, IoBits.none⟩ = (.ok (some td), s)) :
    s = ⟨d, e, m, IoBits.none⟩ ∧ td.size = (e : Int) - p ∧ td.digested = (d.drop p).take (e - p) := by
  rcases Props.C15_track_partial d p e fuel m he hp hf with ⟨td', h1, h2, h3⟩ | ⟨u, h1, _⟩ | ⟨h1, _⟩
  · rw [h] at h1
    simp only [Prod.mk.injEq, Res.ok.injEq, Option.some.injEq] at h1
    obtain ⟨rfl, rfl⟩ := h1
    exact ⟨rfl, h2, h3⟩
  · rw [h] at h1
    simp at h1
  · rw [h] at h1
    simp at h1

end Scribbu.Sections
