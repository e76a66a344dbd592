import Verif.Proofs.WriteBack

/-! What is read from a tag depends on its bytes only: lemmas. -/

namespace Scribbu.Locality
open Scribbu Scribbu.Spec Scribbu.Props Scribbu.WriteBack

/-- A reader that looks at as many bytes as the header announces: what comes of them is `P`, and what comes of too few is `S`. -/
structure Reads (mk : Id3v2Info → SM α) (P : Id3v2Info → Bytes → Res α) (S : Id3v2Info → Res α) : Prop where
  full : ∀ h d p m, p + h.size ≤ d.length → (mk h ⟨d, p, m, IoBits.none⟩).1 = P h ((d.drop p).take h.size) ∧
    ∀ t, P h ((d.drop p).take h.size) = .ok t → (mk h ⟨d, p, m, IoBits.none⟩).2 = ⟨d, p + h.size, m, IoBits.none⟩
  short : ∀ h d p m, p ≤ d.length → d.length < p + h.size → (mk h ⟨d, p, m, IoBits.none⟩).1 = S h
  fails : ∀ h t, S h ≠ .ok t

theorem parse22_short (unsync : Bool) (size : Nat) (d : Bytes) (p : Nat) (m : IoBits) (h : d.length < p + size) (hp : p ≤ d.length) :
    (Tag22.parse unsync size ⟨d, p, m, IoBits.none⟩).1 = .throw .streamFailure := by
  obtain ⟨p', hr⟩ := SM.read_short size d p IoBits.all h (by omega) rfl
  unfold Tag22.parse
  simp only [SM.bind_apply, SM.exceptions_apply, SM.setExceptions_good, SM.tellg_good, SM.onThrow, hr]
  rfl

theorem parse23_short (z : Zlib) (unsync ext : Bool) (size : Nat) (d : Bytes) (p : Nat) (m : IoBits) (h : d.length < p + size) (hp : p ≤ d.length) :
    (Tag23.parse z unsync ext size ⟨d, p, m, IoBits.none⟩).1 = .throw .streamFailure := by
  obtain ⟨p', hr⟩ := SM.read_short size d p IoBits.all h (by omega) rfl
  unfold Tag23.parse
  simp only [SM.bind_apply, SM.exceptions_apply, SM.setExceptions_good, SM.tellg_good, SM.onThrow, hr]
  rfl

theorem parse24_short (z : Zlib) (ext : Bool) (size : Nat) (d : Bytes) (p : Nat) (m : IoBits) (h : d.length < p + size) (hp : p ≤ d.length) :
    (Tag24.parse z ext size ⟨d, p, m, IoBits.none⟩).1 = .throw .streamFailure := by
  obtain ⟨p', hr⟩ := SM.read_short size d p IoBits.all h (by omega) rfl
  unfold Tag24.parse
  simp only [SM.bind_apply, SM.exceptions_apply, SM.setExceptions_good, SM.tellg_good, SM.onThrow, hr]
  rfl

theorem bind_fst (x : SM α) (f : α → SM β) (s : IStream) :
    (x >>= f) s = match x s with
      | (.ok a, s') => f a s'
      | (.throw e, s') => (.throw e, s')
      | (.ub e, s') => (.ub e, s') := by
  rw [SM.bind_apply]
  rcases x s with ⟨_ | _ | _, _⟩ <;> rfl

theorem reads2 : Reads r2 (fun h b => (Tag22.parseBuf (decide (h.flags &&& 0x80 ≠ 0)) b).bind fun r =>
    .ok (.inl ⟨some (decide (h.flags &&& 0x80 ≠ 0)), some (decide (h.flags &&& 0x40 ≠ 0)), some r.2, r.1⟩)) fun _ => .throw .streamFailure where
  full := by
    intro h d p m hl
    have := parse_full (decide (h.flags &&& 0x80 ≠ 0)) h.size d p m hl
    simp only [r2, Tag22.read, SM.bind_apply, this]
    cases Tag22.parseBuf (decide (h.flags &&& 0x80 ≠ 0)) ((d.drop p).take h.size) <;> simp [Res.bind, SM.pure_apply']
  short := by
    intro h d p m hp hl
    have := parse22_short (decide (h.flags &&& 0x80 ≠ 0)) h.size d p m hl hp
    simp only [r2, Tag22.read, SM.bind_apply]
    rcases hx : Tag22.parse (decide (h.flags &&& 0x80 ≠ 0)) h.size ⟨d, p, m, IoBits.none⟩ with ⟨x, s⟩
    rw [hx] at this
    cases this
    rfl
  fails := by simp

theorem reads3 (z : Zlib) : Reads (r3 z) (fun h b => (Tag23.parseBuf z (decide (h.flags &&& 0x80 ≠ 0)) (decide (h.flags &&& 0x40 ≠ 0)) b).bind fun r =>
    .ok (.inr (.inl ⟨some (decide (h.flags &&& 0x80 ≠ 0)), decide (h.flags &&& 0x20 ≠ 0), r.1, r.2.1, r.2.2⟩))) fun _ => .throw .streamFailure where
  full := by
    intro h d p m hl
    have := parse23_full z (decide (h.flags &&& 0x80 ≠ 0)) (decide (h.flags &&& 0x40 ≠ 0)) h.size d p m hl
    simp only [r3, Tag23.read, SM.bind_apply, this]
    cases Tag23.parseBuf z (decide (h.flags &&& 0x80 ≠ 0)) (decide (h.flags &&& 0x40 ≠ 0)) ((d.drop p).take h.size) <;>
      simp [Res.bind, SM.pure_apply']
  short := by
    intro h d p m hp hl
    have := parse23_short z (decide (h.flags &&& 0x80 ≠ 0)) (decide (h.flags &&& 0x40 ≠ 0)) h.size d p m hl hp
    simp only [r3, Tag23.read, SM.bind_apply]
    rcases hx : Tag23.parse z (decide (h.flags &&& 0x80 ≠ 0)) (decide (h.flags &&& 0x40 ≠ 0)) h.size ⟨d, p, m, IoBits.none⟩ with ⟨x, s⟩
    rw [hx] at this
    cases this
    rfl
  fails := by simp

theorem reads4 (z : Zlib) : Reads (r4 z) (fun h b => (Tag24.parseBuf z (decide (h.flags &&& 0x40 ≠ 0)) b).bind fun r =>
    .ok (.inr (.inr ⟨some (decide (h.flags &&& 0x80 ≠ 0)), decide (h.flags &&& 0x20 ≠ 0), decide (h.flags &&& 0x10 ≠ 0), r.1, r.2.1, r.2.2⟩)))
    fun _ => .throw .streamFailure where
  full := by
    intro h d p m hl
    have := parse24_full z (decide (h.flags &&& 0x40 ≠ 0)) h.size d p m hl
    simp only [r4, Tag24.read, SM.bind_apply, this]
    cases Tag24.parseBuf z (decide (h.flags &&& 0x40 ≠ 0)) ((d.drop p).take h.size) <;> simp [Res.bind, SM.pure_apply']
  short := by
    intro h d p m hp hl
    have := parse24_short z (decide (h.flags &&& 0x40 ≠ 0)) h.size d p m hl hp
    simp only [r4, Tag24.read, SM.bind_apply]
    rcases hx : Tag24.parse z (decide (h.flags &&& 0x40 ≠ 0)) h.size ⟨d, p, m, IoBits.none⟩ with ⟨x, s⟩
    rw [hx] at this
    cases this
    rfl
  fails := by simp

theorem reads_mk {mk2 mk3 mk4 : Id3v2Info → SM α} {P2 P3 P4 : Id3v2Info → Bytes → Res α} {S2 S3 S4 : Id3v2Info → Res α}
    (h2 : Reads mk2 P2 S2) (h3 : Reads mk3 P3 S3) (h4 : Reads mk4 P4 S4) : ∃ P S, Reads (mkId3v2 mk2 mk3 mk4) P S := by
  refine ⟨fun h b => if h.version = 2 then P2 h b else if h.version = 3 then P3 h b else if h.version = 4 then P4 h b else .throw .unknownVersion,
    fun h => if h.version = 2 then S2 h else if h.version = 3 then S3 h else if h.version = 4 then S4 h else .throw .unknownVersion, ?_, ?_, ?_⟩
  · intro h d p m hl
    unfold mkId3v2
    split
    · exact h2.full h d p m hl
    · split
      · exact h3.full h d p m hl
      · split
        · exact h4.full h d p m hl
        · exact ⟨rfl, by simp⟩
  · intro h d p m hp hl
    unfold mkId3v2
    split
    · exact h2.short h d p m hp hl
    · split
      · exact h3.short h d p m hp hl
      · split
        · exact h4.short h d p m hp hl
        · rfl
  · intro h t
    split
    · exact h2.fails h t
    · split
      · exact h3.fails h t
      · split
        · exact h4.fails h t
        · simp

section
variable {mk2 mk3 mk4 : Id3v2Info → SM α} {P : Id3v2Info → Bytes → Res α} {S : Id3v2Info → Res α}

theorem maybe_some (mk2 mk3 mk4 : Id3v2Info → SM α) {d : Bytes} {p : Nat} {v r f : Byte} {n : Nat} (m : IoBits) (hi : IsHeader (d.drop p) v r f n) :
    maybeReadId3v2 mk2 mk3 mk4 ⟨d, p, m, IoBits.none⟩ =
      (mkId3v2 mk2 mk3 mk4 ⟨v, r, f, n⟩ >>= fun t => pure (some t)) ⟨d, p + 10, m, IoBits.none⟩ := by
  obtain ⟨o, h1, h2⟩ := lookingAt_spec d p m false
  have ho := (h2 v r f n).2 hi
  subst ho
  unfold maybeReadId3v2
  rw [SM.bind_apply, h1]
  rfl

theorem maybe_none (mk2 mk3 mk4 : Id3v2Info → SM α) {d : Bytes} {p : Nat} (m : IoBits) (hi : NoHeader (d.drop p)) :
    maybeReadId3v2 mk2 mk3 mk4 ⟨d, p, m, IoBits.none⟩ = (.ok none, ⟨d, p, m, IoBits.none⟩) := by
  unfold maybeReadId3v2
  rw [SM.bind_apply, lookingAt_none m hi false]
  rfl

theorem maybe_full (R : Reads (mkId3v2 mk2 mk3 mk4) P S) (pre rest : Bytes) {v r f : Byte} {n : Nat} (m : IoBits) (hi : IsHeader rest v r f n)
    (hl : 10 + n ≤ rest.length) :
    (maybeReadId3v2 mk2 mk3 mk4 ⟨pre ++ rest, pre.length, m, IoBits.none⟩).1 =
      (P ⟨v, r, f, n⟩ ((rest.drop 10).take n)).bind (fun t => .ok (some t)) ∧
    ∀ t, P ⟨v, r, f, n⟩ ((rest.drop 10).take n) = .ok t →
      maybeReadId3v2 mk2 mk3 mk4 ⟨pre ++ rest, pre.length, m, IoBits.none⟩ =
        (.ok (some t), ⟨pre ++ rest, pre.length + (10 + n), m, IoBits.none⟩) := by
  have hd : (pre ++ rest).drop (pre.length + 10) = rest.drop 10 := by rw [← List.drop_drop, List.drop_left]
  obtain ⟨h1, h2⟩ := R.full ⟨v, r, f, n⟩ (pre ++ rest) (pre.length + 10) m (by simp; omega)
  rw [maybe_some mk2 mk3 mk4 m (by rw [List.drop_left]; exact hi), bind_fst]
  dsimp only at h1 h2
  rw [hd] at h1 h2
  rcases hx : mkId3v2 mk2 mk3 mk4 ⟨v, r, f, n⟩ ⟨pre ++ rest, pre.length + 10, m, IoBits.none⟩ with ⟨x, s⟩
  rw [hx] at h1 h2
  dsimp only at h1 h2
  rw [← h1]
  cases x with
  | ok t =>
    have := h2 t h1.symm
    refine ⟨rfl, fun t' ht => ?_⟩
    cases ht
    rw [this]
    simp [SM.pure_apply', Nat.add_assoc]
  | throw e => exact ⟨rfl, by simp⟩
  | ub e => exact ⟨rfl, by simp⟩

theorem maybe_short (R : Reads (mkId3v2 mk2 mk3 mk4) P S) (pre rest : Bytes) {v r f : Byte} {n : Nat} (m : IoBits) (hi : IsHeader rest v r f n)
    (hl : rest.length < 10 + n) :
    (maybeReadId3v2 mk2 mk3 mk4 ⟨pre ++ rest, pre.length, m, IoBits.none⟩).1 = (S ⟨v, r, f, n⟩).bind (fun t => .ok (some t)) := by
  have := isHeader_length hi
  have h1 := R.short ⟨v, r, f, n⟩ (pre ++ rest) (pre.length + 10) m (by simp; omega) (by simp; omega)
  rw [maybe_some mk2 mk3 mk4 m (by rw [List.drop_left]; exact hi), bind_fst]
  rcases hx : mkId3v2 mk2 mk3 mk4 ⟨v, r, f, n⟩ ⟨pre ++ rest, pre.length + 10, m, IoBits.none⟩ with ⟨x, s⟩
  rw [hx] at h1
  dsimp only at h1
  rw [← h1]
  cases x <;> rfl

/-- What `read_all_id3v2` does once the first call of `maybe_read_id3v2` is done. -/
theorem all_fst (fuel : Nat) (s : IStream) :
    (readAllId3v2 mk2 mk3 mk4 (fuel + 1) s).1 = match maybeReadId3v2 mk2 mk3 mk4 s with
      | (.ok none, _) => .ok (some [])
      | (.ok (some t), s') => (readAllId3v2 mk2 mk3 mk4 fuel s').1.bind fun ts => .ok (ts.map (t :: ·))
      | (.throw e, _) => .throw e
      | (.ub e, _) => .ub e := by
  rw [readAllId3v2, bind_fst]
  rcases maybeReadId3v2 mk2 mk3 mk4 s with ⟨(_ | t) | _ | _, s'⟩
  · rfl
  · dsimp only
    rw [bind_fst]
    rcases readAllId3v2 mk2 mk3 mk4 fuel s' with ⟨_ | _ | _, _⟩ <;> rfl
  · rfl
  · rfl

/-- Reading the tags: what comes before does not matter, nor how many calls are allowed if there are enough. -/
theorem all_shift (R : Reads (mkId3v2 mk2 mk3 mk4) P S) (fuel : Nat) : ∀ (fuel' : Nat) (pre pre' rest : Bytes) (m m' : IoBits), rest.length < fuel →
    rest.length < fuel' → (readAllId3v2 mk2 mk3 mk4 fuel ⟨pre ++ rest, pre.length, m, IoBits.none⟩).1 =
      (readAllId3v2 mk2 mk3 mk4 fuel' ⟨pre' ++ rest, pre'.length, m', IoBits.none⟩).1 := by
  induction fuel with
  | zero => intro _ _ _ _ _ _ h; omega
  | succ fuel ih =>
    intro fuel' pre pre' rest m m' h h'
    obtain ⟨fuel', rfl⟩ : ∃ k, fuel' = k + 1 := ⟨fuel' - 1, by omega⟩
    rw [all_fst, all_fst]
    by_cases hx : ∃ v r f n, IsHeader rest v r f n
    · obtain ⟨v, r, f, n, hi⟩ := hx
      have hlen := isHeader_length hi
      by_cases hl : 10 + n ≤ rest.length
      · obtain ⟨a1, a2⟩ := maybe_full R pre rest m hi hl
        obtain ⟨b1, b2⟩ := maybe_full R pre' rest m' hi hl
        cases hp : P ⟨v, r, f, n⟩ ((rest.drop 10).take n) with
        | ok t =>
          rw [a2 t hp, b2 t hp]
          dsimp only
          have e : ∀ q : Bytes, q ++ rest = (q ++ rest.take (10 + n)) ++ rest.drop (10 + n) := fun q => by
            rw [List.append_assoc, List.take_append_drop]
          have l : ∀ q : Bytes, q.length + (10 + n) = (q ++ rest.take (10 + n)).length := fun q => by
            simp; omega
          rw [e pre, e pre', l pre, l pre', ih fuel' (pre ++ rest.take (10 + n)) (pre' ++ rest.take (10 + n)) (rest.drop (10 + n)) m m'
            (by simp; omega) (by simp; omega)]
        | throw e =>
          rw [hp] at a1 b1
          rcases ha : maybeReadId3v2 mk2 mk3 mk4 ⟨pre ++ rest, pre.length, m, IoBits.none⟩ with ⟨x, s⟩
          rcases hb : maybeReadId3v2 mk2 mk3 mk4 ⟨pre' ++ rest, pre'.length, m', IoBits.none⟩ with ⟨y, s'⟩
          rw [ha] at a1; rw [hb] at b1
          cases a1; cases b1; rfl
        | ub e =>
          rw [hp] at a1 b1
          rcases ha : maybeReadId3v2 mk2 mk3 mk4 ⟨pre ++ rest, pre.length, m, IoBits.none⟩ with ⟨x, s⟩
          rcases hb : maybeReadId3v2 mk2 mk3 mk4 ⟨pre' ++ rest, pre'.length, m', IoBits.none⟩ with ⟨y, s'⟩
          rw [ha] at a1; rw [hb] at b1
          cases a1; cases b1; rfl
      · have a1 := maybe_short R pre rest m hi (by omega)
        have b1 := maybe_short R pre' rest m' hi (by omega)
        have hf := R.fails ⟨v, r, f, n⟩
        rcases ha : maybeReadId3v2 mk2 mk3 mk4 ⟨pre ++ rest, pre.length, m, IoBits.none⟩ with ⟨x, s⟩
        rcases hb : maybeReadId3v2 mk2 mk3 mk4 ⟨pre' ++ rest, pre'.length, m', IoBits.none⟩ with ⟨y, s'⟩
        rw [ha] at a1; rw [hb] at b1
        dsimp only at a1 b1
        cases hs : S ⟨v, r, f, n⟩ with
        | ok t => exact absurd hs (hf t)
        | throw e => rw [hs] at a1 b1; cases a1; cases b1; rfl
        | ub e => rw [hs] at a1 b1; cases a1; cases b1; rfl
    · have hn : NoHeader rest := fun v r f n hi => hx ⟨v, r, f, n, hi⟩
      rw [maybe_none mk2 mk3 mk4 m (by rw [List.drop_left]; exact hn), maybe_none mk2 mk3 mk4 m' (by rw [List.drop_left]; exact hn)]

/-- A complete tag and whatever follows it. -/
theorem all_append (R : Reads (mkId3v2 mk2 mk3 mk4) P S) {b : Bytes} (hb : CompleteTag b) (rest : Bytes) (m : IoBits) :
    (readAllId3v2 mk2 mk3 mk4 ((b ++ rest).length + 1) ⟨b ++ rest, 0, m, IoBits.none⟩).1 =
      (maybeReadId3v2 mk2 mk3 mk4 ⟨b, 0, m, IoBits.none⟩).1.bind fun o =>
        (readAllId3v2 mk2 mk3 mk4 (rest.length + 1) ⟨rest, 0, m, IoBits.none⟩).1.bind fun ts => .ok (ts.map (o.toList ++ ·)) := by
  obtain ⟨v, r, f, n, hi, hl⟩ := hb
  obtain ⟨a1, a2⟩ := maybe_full R [] (b ++ rest) m (isHeader_append hi rest) (by simp; omega)
  obtain ⟨b1, b2⟩ := maybe_full R [] b m hi (by omega)
  have e : ((b ++ rest).drop 10).take n = (b.drop 10).take n := by
    rw [List.drop_append_of_le_length (by omega), List.take_append_of_le_length (by simp; omega)]
  rw [e] at a1 a2
  simp only [List.nil_append, List.length_nil, Nat.zero_add] at a1 a2 b1 b2
  rw [all_fst, b1]
  cases hp : P ⟨v, r, f, n⟩ ((b.drop 10).take n) with
  | ok t =>
    rw [a2 t hp, ← hl]
    dsimp only [Res.ok_bind]
    rw [all_shift R (b ++ rest).length (rest.length + 1) b [] rest m m (by simp; omega) (by omega)]
    rfl
  | throw e =>
    rw [hp] at a1
    rcases ha : maybeReadId3v2 mk2 mk3 mk4 ⟨b ++ rest, 0, m, IoBits.none⟩ with ⟨x, s⟩
    rw [ha] at a1
    cases a1; rfl
  | ub e =>
    rw [hp] at a1
    rcases ha : maybeReadId3v2 mk2 mk3 mk4 ⟨b ++ rest, 0, m, IoBits.none⟩ with ⟨x, s⟩
    rw [ha] at a1
    cases a1; rfl

/-- One complete tag, wherever it is. -/
theorem maybe_anywhere (R : Reads (mkId3v2 mk2 mk3 mk4) P S) {b : Bytes} (hb : CompleteTag b) (pre post : Bytes) (m m' : IoBits) :
    (maybeReadId3v2 mk2 mk3 mk4 ⟨pre ++ (b ++ post), pre.length, m, IoBits.none⟩).1 = (maybeReadId3v2 mk2 mk3 mk4 ⟨b, 0, m', IoBits.none⟩).1 ∧
    ∀ o, (maybeReadId3v2 mk2 mk3 mk4 ⟨b, 0, m', IoBits.none⟩).1 = .ok o →
      (∃ t, o = some t) ∧
      (maybeReadId3v2 mk2 mk3 mk4 ⟨pre ++ (b ++ post), pre.length, m, IoBits.none⟩).2 = ⟨pre ++ (b ++ post), pre.length + b.length, m, IoBits.none⟩ := by
  obtain ⟨v, r, f, n, hi, hl⟩ := hb
  obtain ⟨a1, a2⟩ := maybe_full R pre (b ++ post) m (isHeader_append hi post) (by simp; omega)
  obtain ⟨b1, b2⟩ := maybe_full R [] b m' hi (by omega)
  have e : ((b ++ post).drop 10).take n = (b.drop 10).take n := by
    rw [List.drop_append_of_le_length (by omega), List.take_append_of_le_length (by simp; omega)]
  rw [e] at a1 a2
  simp only [List.nil_append, List.length_nil, Nat.zero_add] at b1 b2
  refine ⟨a1.trans b1.symm, fun o ho => ?_⟩
  rw [b1] at ho
  cases hp : P ⟨v, r, f, n⟩ ((b.drop 10).take n) with
  | ok t =>
    rw [hp] at ho
    cases ho
    rw [a2 t hp, hl]
    exact ⟨⟨t, rfl⟩, rfl⟩
  | throw e => rw [hp] at ho; cases ho
  | ub e => rw [hp] at ho; cases ho

end

theorem readers (z : Zlib) : ∃ P S, Reads (mkId3v2 r2 (r3 z) (r4 z)) P S := reads_mk reads2 (reads3 z) (reads4 z)

end Scribbu.Locality
