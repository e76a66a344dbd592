import Verif.Model.Mp3

/-! # Reading behind a prefix

Two streams, one with some bytes before the other's, are read from corresponding places: used in Props/AudioOnly.lean. -/

namespace Scribbu.Shift
open Scribbu

/-- The stream with the bytes `pre` before it. -/
def sh (pre : Bytes) (s : IStream) : IStream := ⟨pre ++ s.data, s.pos + pre.length, s.mask, s.st⟩

/-- Outcomes that correspond. -/
def Rel (pre : Bytes) (Q : α → β → IStream → Prop) : Res α × IStream → Res β × IStream → Prop
  | (.ok a, s), (.ok b, s') => s' = sh pre s ∧ Q a b s
  | (.throw e, s), (.throw e', s') => e = e' ∧ s' = sh pre s
  | (.ub u, _), (.ub u', _) => u = u'
  | _, _ => False

/-- Computations that correspond. -/
def Sim (pre : Bytes) (P : IStream → Prop) (x : SM α) (y : SM β) (Q : α → β → IStream → Prop) : Prop := ∀ s, P s → Rel pre Q (x s) (y (sh pre s))

/-- With the same value. -/
def Same (T : α → IStream → Prop) (a b : α) (s : IStream) : Prop := a = b ∧ T a s

/-- Unless the stream has failed, it is at `n` or further on. -/
def At (n : Int) (s : IStream) : Prop := s.st.fail = false → n ≤ s.pos

variable {pre : Bytes}

theorem Sim.bind {P : IStream → Prop} {x : SM α} {y : SM β} {Q : α → β → IStream → Prop} {f : α → SM γ} {g : β → SM δ} {S : γ → δ → IStream → Prop}
    (h : Sim pre P x y Q) (k : ∀ a b, Sim pre (Q a b) (f a) (g b) S) : Sim pre P (x >>= f) (y >>= g) S := by
  intro s hs
  have hx := h s hs
  show Rel pre S (SM.bind x f s) (SM.bind y g (sh pre s))
  unfold SM.bind
  rcases e : x s with ⟨r, s1⟩
  rcases e' : y (sh pre s) with ⟨r', s2⟩
  rw [e, e'] at hx
  cases r <;> cases r' <;> simp only [Rel] at hx ⊢
  · obtain ⟨rfl, hq⟩ := hx
    exact k _ _ _ hq
  · exact hx
  · exact hx

theorem Sim.bindE {P : IStream → Prop} {x y : SM α} {T : α → IStream → Prop} {f : α → SM γ} {g : α → SM δ} {S : γ → δ → IStream → Prop}
    (h : Sim pre P x y (Same T)) (k : ∀ a, Sim pre (T a) (f a) (g a) S) : Sim pre P (x >>= f) (y >>= g) S := by
  refine h.bind ?_
  rintro a b s ⟨rfl, hs⟩
  exact k a s hs

theorem Sim.mono {P P' : IStream → Prop} {x : SM α} {y : SM β} {Q Q' : α → β → IStream → Prop} (h : Sim pre P x y Q) (hp : ∀ s, P' s → P s)
    (hq : ∀ a b s, Q a b s → Q' a b s) : Sim pre P' x y Q' := by
  intro s hs
  have hx := h s (hp s hs)
  rcases e : x s with ⟨r, s1⟩
  rcases e' : y (sh pre s) with ⟨r', s2⟩
  rw [e, e'] at hx
  cases r <;> cases r' <;> simp only [Rel] at hx ⊢
  · exact ⟨hx.1, hq _ _ _ hx.2⟩
  · exact hx
  · exact hx

theorem sim_pure {P : IStream → Prop} {T : α → IStream → Prop} (a : α) (h : ∀ s, P s → T a s) : Sim pre P (pure a : SM α) (pure a) (Same T) :=
  fun s hs => ⟨rfl, rfl, h s hs⟩

theorem sim_throw {P : IStream → Prop} {Q : α → β → IStream → Prop} (e : Exc) : Sim pre P (SM.throw e) (SM.throw e) Q := fun _ _ => ⟨rfl, rfl⟩

theorem sim_ub {P : IStream → Prop} {Q : α → β → IStream → Prop} (u : UB) : Sim pre P (SM.ub u) (SM.ub u) Q := fun _ _ => rfl

theorem sim_lift {P : IStream → Prop} (r : Res α) : Sim pre P (SM.lift r) (SM.lift r) (Same fun _ => P) := by
  intro s hs
  cases r
  · exact ⟨rfl, rfl, hs⟩
  · exact ⟨rfl, rfl⟩
  · exact rfl

theorem sim_setState {P : IStream → Prop} (b : IoBits) (hb : b.fail = true) (n : Int) : Sim pre P (SM.setState b) (SM.setState b) (Same fun _ => At n) := by
  intro s hs
  by_cases hm : (s.st.or b).meets s.mask = true
  · have e1 : SM.setState b s = (.throw .streamFailure, { s with st := s.st.or b }) := if_pos hm
    have e2 : SM.setState b (sh pre s) = (.throw .streamFailure, { sh pre s with st := s.st.or b }) := if_pos hm
    rw [e1, e2]; exact ⟨rfl, rfl⟩
  · have e1 : SM.setState b s = (.ok (), { s with st := s.st.or b }) := if_neg hm
    have e2 : SM.setState b (sh pre s) = (.ok (), { sh pre s with st := s.st.or b }) := if_neg hm
    rw [e1, e2]
    refine ⟨rfl, rfl, ?_⟩
    intro h
    simp [IoBits.or, hb] at h

theorem drop_sh (s : IStream) : (sh pre s).data.drop (sh pre s).pos = s.data.drop s.pos := by
  simp only [sh]
  rw [Nat.add_comm, ← List.drop_drop, List.drop_left]

theorem sim_read {n : Int} (m : Nat) : Sim pre (At n) (SM.read m) (SM.read m) (Same fun _ => At (n + m)) := by
  intro s hs
  unfold SM.read
  rw [drop_sh]
  have hst : (sh pre s).st = s.st := rfl
  rw [hst]
  have after : ∀ (b : IoBits) (hb : b.fail = true) (t : IStream) (g : Bytes),
      Rel pre (Same fun _ => At (n + m))
        (match SM.setState b t with
          | (.ok (), s') => (.ok g, s')
          | (.throw e, s') => (.throw e, s')
          | (.ub u, s') => (.ub u, s'))
        (match SM.setState b (sh pre t) with
          | (.ok (), s') => (.ok g, s')
          | (.throw e, s') => (.throw e, s')
          | (.ub u, s') => (.ub u, s')) := by
    intro b hb t g
    have := sim_setState (pre := pre) (P := fun _ => True) b hb (n + m) t trivial
    rcases e : SM.setState b t with ⟨r, s1⟩
    rcases e' : SM.setState b (sh pre t) with ⟨r', s2⟩
    rw [e, e'] at this
    cases r <;> cases r' <;> simp only [Rel] at this ⊢
    · exact ⟨this.1, rfl, this.2.2⟩
    · exact this
    · exact this
  split
  · next h0 =>
    simp only
    have hp : ∀ l, ({ sh pre s with pos := (sh pre s).pos + l } : IStream) = sh pre { s with pos := s.pos + l } := by
      intro l; simp only [sh]; congr 1; omega
    split
    · next hl =>
      refine ⟨hp _, rfl, ?_⟩
      intro _
      have := hs (by rw [h0]; rfl)
      simp only [hl]
      push_cast
      omega
    · have := after ⟨true, true, false⟩ rfl { s with pos := s.pos + ((s.data.drop s.pos).take m).length } ((s.data.drop s.pos).take m)
      rw [← hp] at this
      exact this
  · exact after _ rfl _ _

/-- Positions that correspond: or there is none, in a stream that has failed. -/
def Pos (pre : Bytes) (h h' : Int) : Prop := 0 ≤ h ∧ h' = h + pre.length

theorem sim_tellg {n : Int} : Sim pre (At n) SM.tellg SM.tellg
    (fun h h' s => At n s ∧ ((Pos pre h h' ∧ n ≤ h) ∨ (h = -1 ∧ h' = -1 ∧ s.st.fail = true))) := by
  intro s hs
  unfold SM.tellg
  have hst : (sh pre s).st = s.st := rfl
  rw [hst]
  split
  · next h0 =>
    refine ⟨rfl, hs, .inl ⟨⟨by omega, ?_⟩, hs (by rw [h0]; rfl)⟩⟩
    simp [sh]
  · have hx : ∀ s', SM.setState ⟨false, true, false⟩ s = (.ok (), s') → s'.st.fail = true := by
      intro s' h
      simp only [SM.setState] at h
      split at h
      · cases h
      · cases h; simp [IoBits.or]
    have := sim_setState (pre := pre) (P := fun _ => True) ⟨false, true, false⟩ rfl n s trivial
    rcases e : SM.setState ⟨false, true, false⟩ s with ⟨r, s1⟩
    rcases e' : SM.setState ⟨false, true, false⟩ (sh pre s) with ⟨r', s2⟩
    rw [e, e'] at this
    cases r <;> cases r' <;> simp only [Rel] at this ⊢
    · exact ⟨this.1, this.2.2, .inr ⟨trivial, trivial, hx _ e⟩⟩
    · exact this
    · exact this

theorem sim_seekAbs {P : IStream → Prop} {h h' : Int} (hh : Pos pre h h' ∨ (h = -1 ∧ h' = -1)) (n : Int) (hn : Pos pre h h' → n ≤ h) :
    Sim pre P (SM.seekAbs h) (SM.seekAbs h') (Same fun _ => At n) := by
  intro s hs
  have step : ∀ (t : IStream) (k : Int), SM.seekAbs k t = (fun u : IStream => if u.st = IoBits.none then
      (if k < 0 then SM.setState ⟨false, true, false⟩ u else (.ok (), { u with pos := k.toNat })) else SM.setState ⟨false, true, false⟩ u)
      { t with st := { t.st with eof := false } } := fun _ _ => rfl
  rw [step, step]
  have e1 : ({ sh pre s with st := { (sh pre s).st with eof := false } } : IStream) = sh pre { s with st := { s.st with eof := false } } := rfl
  rw [e1]
  generalize ({ s with st := { s.st with eof := false } } : IStream) = t
  by_cases h0 : t.st = IoBits.none
  · have h0' : (sh pre t).st = IoBits.none := h0
    show Rel _ _ (if _ then _ else _) (if _ then _ else _)
    rw [if_pos h0, if_pos h0']
    rcases hh with hh | ⟨rfl, rfl⟩
    · have hn := hn hh
      obtain ⟨h0, rfl⟩ := hh
      rw [if_neg (by omega), if_neg (by omega)]
      refine ⟨?_, rfl, ?_⟩
      · simp only [sh]; congr 1; omega
      · intro _; simp only; omega
    · rw [if_pos (by omega), if_pos (by omega)]
      exact sim_setState _ rfl n t trivial (P := fun _ => True)
  · have h0' : ¬ (sh pre t).st = IoBits.none := h0
    show Rel _ _ (if _ then _ else _) (if _ then _ else _)
    rw [if_neg h0, if_neg h0']
    exact sim_setState _ rfl n t trivial (P := fun _ => True)

theorem sim_seekCur {n : Int} (off : Int) (hn : 0 ≤ n + off) : Sim pre (At n) (SM.seekCur off) (SM.seekCur off) (Same fun _ => At (n + off)) := by
  intro s hs
  unfold SM.seekCur
  by_cases hp : 0 ≤ (s.pos : Int) + off
  · by_cases hf : s.st.fail = false
    · have := hs hf
      exact sim_seekAbs (P := fun _ => True) (.inl ⟨hp, by simp only [sh]; push_cast; omega⟩) _ (fun _ => by omega) s trivial
    · have := sim_seekAbs (pre := pre) (P := fun _ => True) (h := (s.pos : Int) + off) (h' := ((sh pre s).pos : Int) + off)
        (.inl ⟨hp, by simp only [sh]; push_cast; omega⟩) ((s.pos : Int) + off) (fun _ => by omega) s trivial
      -- the stream has failed, and stays so
      have hbad : ∀ (t : IStream) (k : Int), t.st.fail = true → ∀ s', SM.seekAbs k t = (.ok (), s') → s'.st.fail = true := by
        intro t k ht s' h
        simp only [SM.seekAbs] at h
        rw [if_neg (by simp [IoBits.none, ht])] at h
        simp only [SM.setState] at h
        split at h
        · cases h
        · cases h; simp [IoBits.or]
      rcases e : SM.seekAbs ((s.pos : Int) + off) s with ⟨r, s1⟩
      rcases e' : SM.seekAbs (((sh pre s).pos : Int) + off) (sh pre s) with ⟨r', s2⟩
      rw [e, e'] at this
      cases r <;> cases r' <;> simp only [Rel] at this ⊢
      · refine ⟨this.1, this.2.1, fun hx => ?_⟩
        rw [hbad s _ (by simpa using hf) _ e] at hx
        cases hx
      · exact this
      · exact this
  · -- then the stream has failed
    have hf : s.st.fail = true := by
      cases h : s.st.fail with
      | true => rfl
      | false => have := hs h; omega
    have ne : ∀ t : IStream, t.st = s.st → ¬ ({ t.st with eof := false } : IoBits) = IoBits.none := by
      intro t ht
      simp [IoBits.none, ht, hf]
    simp only [SM.seekAbs]
    rw [if_neg (ne s rfl), if_neg (ne (sh pre s) rfl)]
    exact sim_setState (P := fun _ => True) _ rfl _ { s with st := { s.st with eof := false } } trivial

theorem sim_isOk {P : IStream → Prop} : Sim pre P SM.isOk SM.isOk (Same fun _ => P) := fun _ hs => ⟨rfl, rfl, hs⟩
theorem sim_state {P : IStream → Prop} : Sim pre P SM.state SM.state (Same fun _ => P) := fun _ hs => ⟨rfl, rfl, hs⟩
theorem sim_exceptions {P : IStream → Prop} : Sim pre P SM.exceptions SM.exceptions (Same fun _ => P) := fun _ hs => ⟨rfl, rfl, hs⟩

theorem sim_setExceptions {n : Int} (m : IoBits) : Sim pre (At n) (SM.setExceptions m) (SM.setExceptions m) (Same fun _ => At n) := by
  intro s hs
  by_cases hm : s.st.meets m = true
  · have e1 : SM.setExceptions m s = (.throw .streamFailure, { s with mask := m }) := if_pos hm
    have e2 : SM.setExceptions m (sh pre s) = (.throw .streamFailure, { sh pre s with mask := m }) := if_pos hm
    rw [e1, e2]; exact ⟨rfl, rfl⟩
  · have e1 : SM.setExceptions m s = (.ok (), { s with mask := m }) := if_neg hm
    have e2 : SM.setExceptions m (sh pre s) = (.ok (), { sh pre s with mask := m }) := if_neg hm
    rw [e1, e2]; exact ⟨rfl, rfl, hs⟩

theorem sim_clear {P : IStream → Prop} : Sim pre P SM.clear SM.clear (Same fun _ => At 0) := fun s _ => ⟨rfl, rfl, fun _ => by simp⟩

theorem sim_onThrow {P : IStream → Prop} {x : SM α} {y : SM β} {Q : α → β → IStream → Prop} {u v : SM Unit} {R : Unit → Unit → IStream → Prop}
    (h : Sim pre P x y Q) (k : Sim pre (fun _ => True) u v R) : Sim pre P (SM.onThrow x u) (SM.onThrow y v) Q := by
  intro s hs
  have hx := h s hs
  unfold SM.onThrow
  rcases e : x s with ⟨r, s1⟩
  rcases e' : y (sh pre s) with ⟨r', s2⟩
  rw [e, e'] at hx
  cases r <;> cases r' <;> simp only [Rel] at hx ⊢
  · exact hx
  · obtain ⟨rfl, rfl⟩ := hx
    have hk := k s1 trivial
    rcases f : u s1 with ⟨q, t1⟩
    rcases f' : v (sh pre s1) with ⟨q', t2⟩
    rw [f, f'] at hk
    cases q <;> cases q' <;> simp only [Rel] at hk ⊢
    · exact ⟨trivial, hk.1⟩
    · exact hk
    · exact hk
  · exact hx

/-! The functions of scribbu/mp3.cc. -/

abbrev K (n : Int) : α → IStream → Prop := fun _ => At n

theorem At.le {m n : Int} {s : IStream} (h : At n s) (hm : m ≤ n) : At m s := fun hf => Int.le_trans hm (h hf)

theorem Sim.lower {m n : Int} {P : IStream → Prop} {x y : SM α} (h : Sim pre P x y (Same (K n))) (hm : m ≤ n) : Sim pre P x y (Same (K m)) :=
  h.mono (fun _ h => h) (fun _ _ _ h => ⟨h.1, h.2.le hm⟩)

theorem Sim.raise {m n : Int} {x : SM α} {y : SM β} {Q : α → β → IStream → Prop} (h : Sim pre (At m) x y Q) (hm : m ≤ n) : Sim pre (At n) x y Q :=
  h.mono (fun _ h => h.le hm) (fun _ _ _ h => h)

theorem sim_read' {n : Int} (m : Nat) : Sim pre (At n) (SM.read m) (SM.read m) (Same (K n)) := (sim_read m).lower (by omega)

theorem sim_readInit {n : Int} (m : Nat) : Sim pre (At n) (readInit m) (readInit m) (Same (K n)) := by
  unfold readInit
  refine (sim_read' m).bindE fun g => ?_
  split
  · exact sim_ub _
  · exact sim_pure _ fun _ h => h

theorem sim_readOver {n : Int} (buf : Bytes) (m : Nat) : Sim pre (At n) (readOver buf m) (readOver buf m) (Same (K n)) := by
  unfold readOver
  exact (sim_read' m).bindE fun g => sim_pure _ fun _ h => h

theorem sim_skip {n : Int} (off : Int) (h0 : 0 ≤ n) (hoff : 0 ≤ off) : Sim pre (At n) (SM.seekCur off) (SM.seekCur off) (Same (K n)) :=
  (sim_seekCur off (by omega)).lower (by omega)

theorem sim_xingTag {n : Int} : Sim pre (At n) xingTag xingTag (Same (K n)) := by
  unfold xingTag
  refine (sim_readInit 4).bindE fun buf => ?_
  have opt : ∀ (c : Prop) [Decidable c], Sim pre (At n) (if c then do let b ← readInit 4; pure (some (beVal b)) else pure none)
      (if c then do let b ← readInit 4; pure (some (beVal b)) else pure none) (Same (K n)) := by
    intro c _
    split
    · exact (sim_readInit 4).bindE fun b => sim_pure _ fun _ h => h
    · exact sim_pure _ fun _ h => h
  refine (opt _).bindE fun frames => (opt _).bindE fun bytes => ?_
  dsimp only
  split
  · refine (sim_read' 100).bindE fun _ => ?_
    split
    · exact (sim_readInit 4).bindE fun _ => sim_pure _ fun _ h => h
    · exact sim_pure _ fun _ h => h
  · split
    · exact (sim_readInit 4).bindE fun _ => sim_pure _ fun _ h => h
    · exact sim_pure _ fun _ h => h

theorem sim_lameTag {n : Int} (h0 : 0 ≤ n) : Sim pre (At n) lameTag lameTag (Same (K n)) := by
  unfold lameTag
  exact (sim_readInit 5).bindE fun _ => (sim_readInit 1).bindE fun _ => (sim_skip 10 h0 (by omega)).bindE fun _ => (sim_readInit 1).bindE fun _ =>
    (sim_skip 7 h0 (by omega)).bindE fun _ => (sim_readInit 4).bindE fun _ => sim_pure _ fun _ h => h

theorem sim_vbriTag {n : Int} : Sim pre (At n) vbriTag vbriTag (Same (K n)) := by
  unfold vbriTag
  refine (sim_readInit 2).bindE fun _ => (sim_readInit 2).bindE fun _ => (sim_readInit 2).bindE fun _ => (sim_readInit 4).bindE fun _ =>
    (sim_readInit 4).bindE fun _ => (sim_read' 4).bindE fun _ => ?_
  split
  · exact sim_ub _
  · split
    · exact sim_ub _
    · exact (sim_read' 2).bindE fun _ => (sim_read' 2).bindE fun _ => (sim_read' 2).bindE fun _ => sim_pure _ fun _ h => h

theorem sim_xingBranch {n : Int} (h0 : 0 ≤ n) (buf : Bytes) : Sim pre (At n) (xingBranch buf) (xingBranch buf) (Same (K n)) := by
  unfold xingBranch
  refine sim_xingTag.bindE fun fb => ?_
  obtain ⟨f, b⟩ := fb
  refine (sim_readOver buf 4).bindE fun buf => (sim_lift _).bindE fun l => ?_
  cases f <;> cases b <;> dsimp only <;> split <;>
    first
    | exact (sim_lameTag h0).bindE fun _ => sim_pure _ fun _ h => h
    | exact sim_pure _ fun _ h => h

theorem sim_parseVbr {n : Int} (h0 : 13 ≤ n) (side : Nat) (hside : side ≤ 32) : Sim pre (At n) (parseVbr side) (parseVbr side) (Same (K n)) := by
  unfold parseVbr
  refine sim_tellg.bind fun h h' => ?_
  by_cases hh : (Pos pre h h' ∧ n ≤ h) ∨ (h = -1 ∧ h' = -1)
  · refine Sim.mono (P := At n) ?_ (fun s hs => hs.1) (fun _ _ _ h => h)
    refine (sim_readOver _ 4).bindE fun buf => Sim.bindE (T := K 0) ?_ fun r =>
      (sim_seekAbs (hh.imp (·.1) id) n (fun hp => by rcases hh with ⟨_, hh⟩ | ⟨hh, _⟩; exact hh; exact absurd hp.1 (by omega))).bindE
        fun _ => sim_pure _ fun _ h => h
    split
    · exact (sim_xingBranch (by omega) buf).lower (by omega)
    · refine (sim_seekCur (-6) (by omega)).bindE fun _ => (sim_readOver _ 4).bindE fun buf => ?_
      split
      · exact (sim_xingBranch (by omega) buf).lower (by omega)
      · refine (sim_seekCur _ (by omega)).bindE fun _ => (sim_readOver _ 4).bindE fun buf => ?_
        split
        · exact sim_vbriTag.bindE fun p => sim_pure _ fun _ h => h.le (by omega)
        · exact sim_pure _ fun _ h => h.le (by omega)
  · intro s hs
    exact absurd (hs.2.imp id (fun h => ⟨h.1, h.2.1⟩)) hh

theorem sim_back {P : IStream → Prop} {h h' : Int} (hh : Pos pre h h' ∨ (h = -1 ∧ h' = -1)) {Q : α → β → IStream → Prop} (e : Exc) :
    Sim pre P (do SM.seekBeg h; SM.throw e) (do SM.seekBeg h'; SM.throw e) Q :=
  (sim_seekAbs hh h (fun _ => by omega)).bindE fun _ => sim_throw e

/-- What a frame header says of the sizes. -/
def Sizes (n : Int) (f : Mp3Frame) (s : IStream) : Prop := f.sideInfo ≤ 32 ∧ 9 ≤ f.sideInfo ∧ At (n + (if f.crc then 2 else 0) + f.sideInfo) s

theorem sim_parseHeaderBody {n : Int} (h0 : 0 ≤ n) (hd : Hdr) {h h' : Int} (hh : Pos pre h h' ∨ (h = -1 ∧ h' = -1)) :
    Sim pre (At n) (parseHeaderBody hd h) (parseHeaderBody hd h') (Same (Sizes n)) := by
  unfold parseHeaderBody
  split
  · exact sim_throw _
  refine Sim.bindE (T := K n) ?_ fun v => ?_
  · split
    · exact sim_pure _ fun _ h => h
    · exact sim_throw _
    · exact sim_pure _ fun _ h => h
    · exact sim_pure _ fun _ h => h
  split
  · exact sim_back hh _
  refine Sim.bindE (T := fun c => At (n + (if c = true then 2 else 0))) ?_ fun c => ?_
  · split
    · refine (sim_read 2).bindE fun b => ?_
      split
      · exact sim_ub _
      · exact sim_pure _ fun _ h => h
    · exact sim_pure _ fun _ h => by simpa using h
  have hc : 0 ≤ n + (if c = true then 2 else 0) := by split <;> omega
  simp only
  refine Sim.mono (P := At (n + (if c = true then 2 else 0))) ?_ (fun _ h => h) (fun _ _ _ h => h)
  generalize hm : n + (if c = true then 2 else 0) = m at hc
  split
  · exact sim_back hh _
  split
  · exact sim_back hh _
  refine (sim_lift _).bindE fun br => ?_
  split
  · exact sim_back hh _
  refine (sim_lift _).bindE fun rate => ?_
  refine (sim_seekCur _ (by omega)).bindE fun _ => ?_
  refine sim_pure _ fun s hs => ⟨?_, ?_, ?_⟩
  · simp only; split <;> split <;> omega
  · simp only; split <;> split <;> omega
  · simp only [hm]; exact hs

theorem sim_parseHeader {n : Int} (h0 : 0 ≤ n) (hd : Hdr) : Sim pre (At n) (parseHeader hd) (parseHeader hd) (Same (Sizes n)) := by
  unfold parseHeader
  refine sim_tellg.bind fun h h' => ?_
  by_cases hh : Pos pre h h' ∨ (h = -1 ∧ h' = -1)
  · refine Sim.mono (P := At n) ?_ (fun s hs => hs.1) (fun _ _ _ h => h)
    refine sim_onThrow (R := Same fun _ _ => True) (sim_parseHeaderBody h0 hd hh) ?_
    refine sim_state.bindE fun st => ?_
    split
    · exact (sim_seekAbs hh h fun _ => by omega).mono (fun _ h => h) (fun _ _ _ h => ⟨h.1, trivial⟩)
    · exact sim_pure _ fun _ _ => trivial
  · intro s hs
    exact absurd (hs.2.imp (·.1) (fun h => ⟨h.1, h.2.1⟩)) hh

theorem sim_mp3Frame {n : Int} (h0 : 4 ≤ n) (hd : Hdr) (c : Bool) :
    Sim pre (At n) (mp3Frame hd c) (mp3Frame hd c) (Same fun fv => At ((n - 4) + fv.1.size)) := by
  unfold mp3Frame
  refine (sim_parseHeader (by omega) hd).bindE fun f => ?_
  by_cases hf : f.sideInfo ≤ 32 ∧ 9 ≤ f.sideInfo
  · refine Sim.mono (P := At (n + (if f.crc then 2 else 0) + f.sideInfo)) ?_ (fun s hs => hs.2.2) (fun _ _ _ h => h)
    have hc : (0 : Int) ≤ (if f.crc = true then 2 else 0) := by split <;> omega
    refine Sim.bindE (T := K (n + (if f.crc then 2 else 0) + f.sideInfo)) ?_ fun v => ?_
    · cases c
      · exact sim_pure _ fun _ h => h
      · exact sim_parseVbr (by omega) _ hf.1
    · exact (sim_seekCur _ (by omega)).bindE fun _ => sim_pure _ fun s hs => hs.le (by simp only; omega)
  · intro s hs
    exact absurd ⟨hs.1, hs.2.1⟩ hf

theorem sim_findSyncLoop (fuel : Nat) : ∀ {h h' : Int} (b0 b1 : Byte), Pos pre h h' →
    Sim pre (fun _ => True) (findSyncLoop fuel h b0 b1) (findSyncLoop fuel h' b0 b1)
      (fun r r' _ => (r = none ∧ r' = none) ∨ ∃ p p' b, r = some (p, b) ∧ r' = some (p', b) ∧ Pos pre p p') := by
  induction fuel with
  | zero =>
    intro h h' b0 b1 hh
    unfold findSyncLoop
    refine sim_isOk.bindE fun ok => ?_
    split
    · exact fun s _ => ⟨rfl, .inl ⟨rfl, rfl⟩⟩
    · exact fun s _ => ⟨rfl, .inr ⟨_, _, _, rfl, rfl, hh⟩⟩
  | succ fuel ih =>
    intro h h' b0 b1 hh
    unfold findSyncLoop
    refine sim_isOk.bindE fun ok => ?_
    split
    · have hn : Pos pre (h + (if b1 = 0xff then 1 else 2)) (h' + (if b1 = 0xff then 1 else 2)) := by
        obtain ⟨h0, rfl⟩ := hh
        constructor
        · split <;> omega
        · omega
      refine (sim_seekAbs (.inl hn) 0 (fun _ => hn.1)).bindE fun _ => (sim_read' 2).bindE fun got => ?_
      split
      · exact Sim.mono (ih _ _ hn) (fun _ _ => trivial) (fun _ _ _ h => h)
      · exact sim_ub _
    · exact fun s _ => ⟨rfl, .inr ⟨_, _, _, rfl, rfl, hh⟩⟩

/-- Nothing is read from a stream that has failed. -/
theorem sim_read_failed (m : Nat) : Sim pre (fun s => s.st.fail = true) (SM.read m) (SM.read m) (Same fun g _ => g = []) := by
  intro s hs
  have hne : ¬ s.st = IoBits.none := by intro h; rw [h] at hs; cases hs
  have hne' : ¬ (sh pre s).st = IoBits.none := hne
  unfold SM.read
  rw [if_neg hne, if_neg hne']
  have := sim_setState (pre := pre) (P := fun _ => True) ⟨false, true, false⟩ rfl 0 s trivial
  rcases e : SM.setState ⟨false, true, false⟩ s with ⟨r, s1⟩
  rcases e' : SM.setState ⟨false, true, false⟩ (sh pre s) with ⟨r', s2⟩
  rw [e, e'] at this
  cases r <;> cases r' <;> simp only [Rel] at this ⊢
  · exact ⟨this.1, rfl, rfl⟩
  · exact this
  · exact this

theorem sim_findSync (fuel : Nat) : Sim pre (At 0) (findSync fuel) (findSync fuel) (Same (K 0)) := by
  unfold findSync
  refine (sim_setExceptions _).bindE fun _ => sim_tellg.bind fun h h' => ?_
  intro s hs
  rcases hs.2 with hh | ⟨rfl, rfl, hf⟩
  · refine ((sim_read' (n := 0) 2).bindE (S := Same (K 0)) fun got => ?_) s hs.1
    split
    · refine Sim.bind (P := At 0) ((sim_findSyncLoop fuel _ _ hh.1).mono (fun _ _ => trivial) (fun _ _ _ h => h)) fun r r' => ?_
      intro t ht
      rcases ht with ⟨rfl, rfl⟩ | ⟨p, p', b, rfl, rfl, hp⟩
      · exact ⟨rfl, rfl, fun _ => by omega⟩
      · simp only
        cases b
        · exact ⟨rfl, rfl, fun _ => by omega⟩
        · exact ((sim_seekAbs (P := fun _ => True) (.inl hp) 0 (fun _ => hp.1)).bindE (S := Same (K 0)) fun _ => sim_pure _ fun _ h => h) t trivial
    · exact sim_ub _
  · refine ((sim_read_failed 2).bindE (S := Same (K 0)) fun got => ?_) s hf
    intro t ht
    subst ht
    exact rfl

theorem sim_readHdr {n : Int} (hd : Hdr) : Sim pre (At n) (readHdr hd) (readHdr hd) (Same (K (n + 4))) := by
  unfold readHdr
  refine (sim_read 4).bindE fun got => ?_
  split
  · exact sim_pure _ fun _ h => h
  · exact sim_ub _

theorem sim_countFrames (fuel : Nat) : ∀ (hd : Hdr) (k : Nat), Sim pre (At 0) (countFrames fuel hd k) (countFrames fuel hd k) (Same (K 0)) := by
  induction fuel with
  | zero =>
    intro hd k
    unfold countFrames
    refine (sim_readHdr hd).bindE fun hd => sim_isOk.bindE fun ok => ?_
    split
    · exact sim_clear.bindE fun _ => sim_pure _ fun _ h => h
    · exact sim_pure _ fun _ h => h.le (by omega)
  | succ fuel ih =>
    intro hd k
    unfold countFrames
    refine (sim_readHdr hd).bindE fun hd => sim_isOk.bindE fun ok => ?_
    split
    · exact sim_clear.bindE fun _ => sim_pure _ fun _ h => h
    · exact (sim_mp3Frame (by omega) hd false).bindE fun fv => (ih hd (k + 1)).raise (by omega)

theorem sim_mp3Duration (fuel : Nat) : Sim pre (At 0) (mp3Duration fuel) (mp3Duration fuel) (Same (K 0)) := by
  unfold mp3Duration
  refine sim_exceptions.bindE fun mask => (sim_setExceptions _).bindE fun _ => sim_tellg.bind fun h h' => ?_
  by_cases hh : Pos pre h h' ∨ (h = -1 ∧ h' = -1)
  · refine Sim.mono (P := At 0) ?_ (fun s hs => hs.1) (fun _ _ _ h => h)
    refine (sim_readHdr _).bindE fun hd => sim_isOk.bindE fun ok => ?_
    refine Sim.bindE (T := fun o s => o ≠ none → At 4 s) ?_ fun o => ?_
    · split
      · refine ((sim_findSync fuel).raise (by omega)).bindE fun r => ?_
        split
        · exact sim_pure _ fun _ _ h => absurd rfl h
        · exact (sim_readHdr hd).bindE fun hd => sim_pure _ fun _ h _ => h.le (by omega)
      · exact sim_pure _ fun _ h _ => h.le (by omega)
    · cases o with
      | none => exact fun s _ => ⟨rfl, rfl, fun _ => by omega⟩
      | some hd =>
        refine Sim.mono (P := At 4) ?_ (fun _ h => h (by simp)) (fun _ _ _ h => h)
        refine sim_isOk.bindE fun ok => ?_
        split
        · exact sim_clear.bindE fun _ => (sim_seekAbs hh 0 (fun hp => hp.1)).bindE fun _ => sim_pure _ fun _ h => h
        · refine (sim_mp3Frame (by omega) hd true).bindE fun fv => ?_
          obtain ⟨f, v⟩ := fv
          cases v with
          | some v =>
            obtain ⟨frames, nbytes⟩ := v
            exact (sim_seekCur _ (by simp only; omega)).bindE fun _ => (sim_setExceptions _).bindE fun _ => sim_pure _ fun _ h => h.le (by simp only; omega)
          | none =>
            refine ((sim_countFrames fuel hd 1).raise (by simp only; omega)).bindE fun r => ?_
            cases r with
            | none => exact sim_pure _ fun _ h => h
            | some k => exact (sim_setExceptions _).bindE fun _ => sim_pure _ fun _ h => h
  · intro s hs
    exact absurd (hs.2.imp (·.1) (fun h => ⟨h.1, h.2.1⟩)) hh

/-! More steps do no harm. -/

/-- The first does what the second does, or gives up. -/
def Upto (x y : SM (Option α)) : Prop := ∀ s, (∃ s', x s = (.ok none, s')) ∨ x s = y s

theorem Upto.refl (x : SM (Option α)) : Upto x x := fun _ => .inr rfl

theorem Upto.after {x : SM β} {f g : β → SM (Option α)} (h : ∀ b, Upto (f b) (g b)) : Upto (x >>= f) (x >>= g) := by
  intro s
  show (∃ s', SM.bind x f s = _) ∨ SM.bind x f s = SM.bind x g s
  unfold SM.bind
  rcases x s with ⟨r, s1⟩
  cases r with
  | ok a => exact h a s1
  | throw e => exact .inr rfl
  | ub u => exact .inr rfl

theorem Upto.before {x y : SM (Option β)} {f : Option β → SM (Option α)} (h : Upto x y) (hf : f none = pure none) : Upto (x >>= f) (y >>= f) := by
  intro s
  show (∃ s', SM.bind x f s = _) ∨ SM.bind x f s = SM.bind y f s
  unfold SM.bind
  rcases h s with ⟨s', h⟩ | h
  · rw [h]
    exact .inl ⟨s', by simp only [hf]; rfl⟩
  · rw [h]
    exact .inr rfl

theorem Upto.trans {x y z : SM (Option α)} (h : Upto x y) (k : Upto y z) : Upto x z := by
  intro s
  rcases h s with h | h
  · exact .inl h
  · rw [h]; exact k s

theorem upto_findSyncLoop (fuel : Nat) : ∀ (h : Int) (b0 b1 : Byte), Upto (findSyncLoop fuel h b0 b1) (findSyncLoop (fuel + 1) h b0 b1) := by
  induction fuel with
  | zero =>
    intro h b0 b1
    conv => lhs; unfold findSyncLoop
    conv => rhs; unfold findSyncLoop
    refine Upto.after fun ok => ?_
    split
    · exact fun s => .inl ⟨s, rfl⟩
    · exact Upto.refl _
  | succ fuel ih =>
    intro h b0 b1
    conv => lhs; unfold findSyncLoop
    conv => rhs; unfold findSyncLoop
    refine Upto.after fun ok => ?_
    split
    · refine Upto.after fun _ => Upto.after fun got => ?_
      split
      · exact ih _ _ _
      · exact Upto.refl _
    · exact Upto.refl _

theorem upto_findSync (fuel : Nat) : Upto (findSync fuel) (findSync (fuel + 1)) := by
  unfold findSync
  refine Upto.after fun _ => Upto.after fun h => Upto.after fun got => ?_
  split
  · exact Upto.before (upto_findSyncLoop fuel _ _ _) rfl
  · exact Upto.refl _

theorem upto_countFrames (fuel : Nat) : ∀ (h : Hdr) (n : Nat), Upto (countFrames fuel h n) (countFrames (fuel + 1) h n) := by
  induction fuel with
  | zero =>
    intro h n
    conv => lhs; unfold countFrames
    conv => rhs; unfold countFrames
    refine Upto.after fun h => Upto.after fun ok => ?_
    split
    · exact Upto.refl _
    · exact fun s => .inl ⟨s, rfl⟩
  | succ fuel ih =>
    intro h n
    conv => lhs; unfold countFrames
    conv => rhs; unfold countFrames
    refine Upto.after fun h => Upto.after fun ok => ?_
    split
    · exact Upto.refl _
    · exact Upto.after fun _ => ih _ _

theorem upto_mp3Duration (fuel : Nat) : Upto (mp3Duration fuel) (mp3Duration (fuel + 1)) := by
  unfold mp3Duration
  refine Upto.after fun mask => Upto.after fun _ => Upto.after fun h => Upto.after fun hd => Upto.after fun ok => ?_
  refine Upto.trans (Upto.before (y := if ok && !isSync hd.b0 hd.b1 then do
      let r ← findSync (fuel + 1)
      match r with
      | none => pure none
      | some () => do
        let h ← readHdr hd
        pure (some h)
    else pure (some hd)) ?_ rfl) (Upto.after fun o => ?_)
  · split
    · exact Upto.before (upto_findSync fuel) rfl
    · exact Upto.refl _
  · cases o with
    | none => exact Upto.refl _
    | some hd =>
      refine Upto.after fun ok => ?_
      split
      · exact Upto.refl _
      · refine Upto.after fun fv => ?_
        obtain ⟨f, v⟩ := fv
        cases v with
        | some v => exact Upto.refl _
        | none => exact Upto.before (upto_countFrames fuel _ _) rfl

theorem upto_le {fuel fuel' : Nat} (h : fuel ≤ fuel') : Upto (mp3Duration fuel) (mp3Duration fuel') := by
  induction h with
  | refl => exact Upto.refl _
  | step _ ih => exact ih.trans (upto_mp3Duration _)

theorem enough {fuel fuel' : Nat} {s : IStream} (h : fuel ≤ fuel') (hn : (mp3Duration fuel s).1 ≠ .ok none) : mp3Duration fuel s = mp3Duration fuel' s := by
  rcases upto_le h s with ⟨s', k⟩ | k
  · exact absurd (by rw [k]) hn
  · exact k

/-- What the duration comes to behind a prefix. -/
theorem behind (fuel : Nat) (pre d : Bytes) (m st : IoBits) : (mp3Duration fuel ⟨pre ++ d, pre.length, m, st⟩).1 = (mp3Duration fuel ⟨d, 0, m, st⟩).1 := by
  have := sim_mp3Duration (pre := pre) fuel ⟨d, 0, m, st⟩ (fun _ => by simp)
  have e : sh pre ⟨d, 0, m, st⟩ = ⟨pre ++ d, pre.length, m, st⟩ := by simp [sh]
  rw [e] at this
  rcases e1 : mp3Duration fuel ⟨d, 0, m, st⟩ with ⟨r, s1⟩
  rcases e2 : mp3Duration fuel ⟨pre ++ d, pre.length, m, st⟩ with ⟨r', s2⟩
  rw [e1, e2] at this
  cases r <;> cases r' <;> simp only [Rel] at this ⊢
  · rw [this.2.1]
  · rw [this.1]
  · rw [this]

end Scribbu.Shift
