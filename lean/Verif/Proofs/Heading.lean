import Verif.Spec.Heading
import Verif.Proofs.Sections
import Verif.Proofs.Tag23
import Verif.Proofs.Tag24
import Verif.Model.Std

/-! # Reading tags: what is made of their headers -/

namespace Scribbu.Heading
open Scribbu Scribbu.Spec Scribbu.Sections

/-- What a reader makes of a header and of the bytes after it. -/
def ReadsAs {α : Type} (R : Id3v2Info → Bytes → α → Prop) (w : Byte) (mk : Id3v2Info → SM α) : Prop :=
  ∀ (h : Id3v2Info) (d : Bytes) (p : Nat) (m : IoBits) (a : α) (s : IStream), h.version = w → mk h ⟨d, p, m, IoBits.none⟩ = (.ok a, s) →
    s = ⟨d, p + h.size, m, IoBits.none⟩ ∧ R h ((d.drop p).take h.size) a

theorem block_value {α : Type} {size : Nat} {f : Bytes → Res α} {d : Bytes} {p : Nat} {m : IoBits} {a : α} {s : IStream}
    (h : block size f ⟨d, p, m, IoBits.none⟩ = (.ok a, s)) : f ((d.drop p).take size) = .ok a ∧ ((d.drop p).take size).length = size := by
  have hlen : p + size ≤ d.length ∨ size = 0 → ((d.drop p).take size).length = size := by
    rintro (h | rfl)
    · rw [List.length_take, List.length_drop]; omega
    · simp
  unfold block at h
  rw [SM.bind_ok (SM.exceptions_apply _), SM.bind_ok (SM.setExceptions_good _ _ _ _), SM.bind_ok (SM.tellg_good _ _ _)] at h
  by_cases hl : p + size ≤ d.length ∨ size = 0
  · have hr : SM.read size ⟨d, p, IoBits.all, IoBits.none⟩ = (.ok ((d.drop p).take size), ⟨d, p + size, IoBits.all, IoBits.none⟩) := by
      rcases hl with hl | rfl
      · exact SM.read_full _ _ _ _ hl
      · simp [SM.read]
    obtain ⟨r, s1, h1, h2⟩ := sm_bind_ok h
    obtain ⟨u, s2, h3, h4⟩ := sm_bind_ok h2
    have h4 : (Res.ok r, s2) = (Res.ok a, s) := h4
    simp only [Prod.mk.injEq, Res.ok.injEq] at h4
    obtain ⟨rfl, rfl⟩ := h4
    have e : (do let buf ← SM.read size; SM.lift (f buf) : SM α) ⟨d, p, IoBits.all, IoBits.none⟩ =
        (f ((d.drop p).take size), ⟨d, p + size, IoBits.all, IoBits.none⟩) := by
      rw [SM.bind_ok hr, SM.lift_apply]
    cases hb : f ((d.drop p).take size) with
    | ok b =>
      rw [hb] at e
      unfold SM.onThrow at h1
      rw [e] at h1
      simp only [Prod.mk.injEq, Res.ok.injEq] at h1
      exact ⟨by rw [h1.1], hlen hl⟩
    | throw x =>
      rw [hb] at e
      exact (not_ok_throw e h1).elim
    | ub x =>
      rw [hb] at e
      unfold SM.onThrow at h1
      rw [e] at h1
      simp at h1
  · exfalso
    obtain ⟨p', hr⟩ := SM.read_short size d p IoBits.all (by omega) (by omega) rfl
    have e : (do let buf ← SM.read size; SM.lift (f buf) : SM α) ⟨d, p, IoBits.all, IoBits.none⟩ = (.throw .streamFailure, ⟨d, p', IoBits.all, ⟨true, true, false⟩⟩) := by
      rw [SM.bind_throw hr]
    rw [SM.bind_apply] at h
    split at h
    next a' s' he => exact not_ok_throw e he
    next => simp at h
    next => simp at h

theorem as_map {α β : Type} {R : Id3v2Info → Bytes → α → Prop} {Q : Id3v2Info → Bytes → β → Prop} {w : Byte} {mk : Id3v2Info → SM α} {g : Id3v2Info → α → β}
    (h : ReadsAs R w mk) (k : ∀ h c a, h.version = w → R h c a → Q h c (g h a)) :
    ReadsAs Q w (fun h => mk h >>= fun t => pure (g h t)) := by
  intro i d p m b s hw e
  obtain ⟨a, s1, h1, h2⟩ := sm_bind_ok e
  obtain ⟨rfl, h3⟩ := h i d p m a s1 hw h1
  have h2 : (Res.ok (g i a), _) = (Res.ok b, s) := h2
  simp only [Prod.mk.injEq, Res.ok.injEq] at h2
  exact ⟨h2.2.symm, h2.1 ▸ k i _ a hw h3⟩

theorem as22 : ReadsAs (fun h c t => c.length = h.size ∧ ∃ fs pad, Tag22.parseBuf (decide (h.flags &&& 0x80 ≠ 0)) c = .ok (fs, pad) ∧
    t = ⟨some (decide (h.flags &&& 0x80 ≠ 0)), some (decide (h.flags &&& 0x40 ≠ 0)), some pad, fs⟩) 2 Tag22.read := by
  intro h d p m a s _ e
  unfold Tag22.read at e
  obtain ⟨⟨fs, pad⟩, s1, h1, h2⟩ := sm_bind_ok e
  have h1 : block h.size (Tag22.parseBuf (decide (h.flags &&& 0x80 ≠ 0))) ⟨d, p, m, IoBits.none⟩ = (.ok (fs, pad), s1) := h1
  have := block_end h1
  subst this
  have h2 : (Res.ok _, _) = (Res.ok a, s) := h2
  simp only [Prod.mk.injEq, Res.ok.injEq] at h2
  exact ⟨h2.2.symm, (block_value h1).2, fs, pad, (block_value h1).1, h2.1.symm⟩

theorem as23 (z : Zlib) : ReadsAs (fun h c t => c.length = h.size ∧ ∃ ext pad fs, Tag23.parseBuf z (decide (h.flags &&& 0x80 ≠ 0)) (decide (h.flags &&& 0x40 ≠ 0)) c = .ok (ext, pad, fs) ∧
    t = ⟨some (decide (h.flags &&& 0x80 ≠ 0)), decide (h.flags &&& 0x20 ≠ 0), ext, pad, fs⟩) 3 (Tag23.read z) := by
  intro h d p m a s _ e
  unfold Tag23.read at e
  obtain ⟨⟨ext, pad, fs⟩, s1, h1, h2⟩ := sm_bind_ok e
  have h1 : block h.size (Tag23.parseBuf z (decide (h.flags &&& 0x80 ≠ 0)) (decide (h.flags &&& 0x40 ≠ 0))) ⟨d, p, m, IoBits.none⟩ = (.ok (ext, pad, fs), s1) := h1
  have := block_end h1
  subst this
  have h2 : (Res.ok _, _) = (Res.ok a, s) := h2
  simp only [Prod.mk.injEq, Res.ok.injEq] at h2
  exact ⟨h2.2.symm, (block_value h1).2, ext, pad, fs, (block_value h1).1, h2.1.symm⟩

theorem as24 (z : Zlib) : ReadsAs (fun h c t => c.length = h.size ∧ ∃ ext pad fs, Tag24.parseBuf z (decide (h.flags &&& 0x40 ≠ 0)) c = .ok (ext, pad, fs) ∧
    t = ⟨some (decide (h.flags &&& 0x80 ≠ 0)), decide (h.flags &&& 0x20 ≠ 0), decide (h.flags &&& 0x10 ≠ 0), ext, pad, fs⟩) 4 (Tag24.read z) := by
  intro h d p m a s _ e
  unfold Tag24.read at e
  obtain ⟨⟨ext, pad, fs⟩, s1, h1, h2⟩ := sm_bind_ok e
  have h1 : block h.size (Tag24.parseBuf z (decide (h.flags &&& 0x40 ≠ 0))) ⟨d, p, m, IoBits.none⟩ = (.ok (ext, pad, fs), s1) := h1
  have := block_end h1
  subst this
  have h2 : (Res.ok _, _) = (Res.ok a, s) := h2
  simp only [Prod.mk.injEq, Res.ok.injEq] at h2
  exact ⟨h2.2.symm, (block_value h1).2, ext, pad, fs, (block_value h1).1, h2.1.symm⟩

theorem readAll_heads {α : Type} {R : Id3v2Info → Bytes → α → Prop} {mk2 mk3 mk4 : Id3v2Info → SM α} (h2 : ReadsAs R 2 mk2) (h3 : ReadsAs R 3 mk3)
    (h4 : ReadsAs R 4 mk4) {d : Bytes} {m : IoBits} {fuel : Nat} {ts : List α} {s : IStream} {p : Nat} {c : Bytes} {hs : List Head} (hc : c = d.drop p)
    (hto : HeadsTo c hs) (hnf : NoFooter c) (hr : readAllId3v2 mk2 mk3 mk4 fuel ⟨d, p, m, IoBits.none⟩ = (.ok (some ts), s)) :
    Each (fun (h : Head) t => (h.version = 2 ∨ h.version = 3 ∨ h.version = 4) ∧ R ⟨h.version, h.revision, h.flags, h.size⟩ h.content t) hs ts := by
  induction hto generalizing fuel ts p s with
  | none hn =>
    subst hc
    cases fuel with
    | zero => exact absurd hr (by simp [readAllId3v2, Pure.pure, SM.pure])
    | succ fuel =>
      unfold readAllId3v2 at hr
      obtain ⟨o, s1, k1, k2⟩ := sm_bind_ok hr
      unfold maybeReadId3v2 at k1
      obtain ⟨o', e1, e2⟩ := _root_.Scribbu.lookingAt_spec d p m false
      have : o' = none := by
        cases o' with
        | none => rfl
        | some x => exact absurd ((e2 x.version x.revision x.flags x.size).1 rfl) (hn _ _ _ _)
      subst this
      rw [SM.bind_ok e1] at k1
      have k1 : (Res.ok none, _) = (Res.ok o, s1) := k1
      simp only [Prod.mk.injEq, Res.ok.injEq] at k1
      obtain ⟨rfl, rfl⟩ := k1
      have k2 : (Res.ok (some []), _) = (Res.ok (some ts), s) := k2
      simp only [Prod.mk.injEq, Res.ok.injEq, Option.some.injEq] at k2
      obtain ⟨rfl, rfl⟩ := k2
      exact .nil
  | @tag c v r f n hs hh _ ih =>
    subst hc
    cases fuel with
    | zero => exact absurd hr (by simp [readAllId3v2, Pure.pure, SM.pure])
    | succ fuel =>
      have hsp : tagSpan v f n = 10 + n ∧ NoFooter (List.drop (10 + n) (d.drop p)) := by
        cases hnf with
        | none hn => exact absurd hh (hn _ _ _ _)
        | tag g1 g2 g3 =>
          obtain ⟨rfl, rfl, rfl, rfl⟩ := header_unique hh g1
          refine ⟨?_, g3⟩
          unfold tagSpan
          rw [if_neg (fun x => x.2 (g2 x.1)), Nat.add_zero]
      obtain ⟨hsp, hnf⟩ := hsp
      rw [hsp] at ih
      unfold readAllId3v2 at hr
      obtain ⟨o, s1, k1, k2⟩ := sm_bind_ok hr
      unfold maybeReadId3v2 at k1
      obtain ⟨o', e1, e2⟩ := _root_.Scribbu.lookingAt_spec d p m false
      have : o' = some ⟨v, r, f, n⟩ := (e2 v r f n).2 hh
      subst this
      rw [SM.bind_ok e1] at k1
      simp only [Option.isSome_some, Bool.not_false, Bool.and_self, if_true] at k1
      obtain ⟨a, s2, k3, k4⟩ := sm_bind_ok k1
      have key : s2 = ⟨d, p + 10 + n, m, IoBits.none⟩ ∧ (v = 2 ∨ v = 3 ∨ v = 4) ∧ R ⟨v, r, f, n⟩ ((d.drop (p + 10)).take n) a := by
        unfold mkId3v2 at k3
        split at k3
        · rename_i hv
          have := h2 ⟨v, r, f, n⟩ _ _ _ _ _ hv k3
          exact ⟨this.1, .inl hv, this.2⟩
        · split at k3
          · rename_i hv
            have := h3 ⟨v, r, f, n⟩ _ _ _ _ _ hv k3
            exact ⟨this.1, .inr (.inl hv), this.2⟩
          · split at k3
            · rename_i hv
              have := h4 ⟨v, r, f, n⟩ _ _ _ _ _ hv k3
              exact ⟨this.1, .inr (.inr hv), this.2⟩
            · simp [SM.throw] at k3
      obtain ⟨rfl, hv, hR⟩ := key
      have k4 : (Res.ok (some a), _) = (Res.ok o, s1) := k4
      simp only [Prod.mk.injEq, Res.ok.injEq] at k4
      obtain ⟨rfl, rfl⟩ := k4
      obtain ⟨ts', s3, k5, k6⟩ := sm_bind_ok k2
      have k7 : (Res.ok (ts'.map (a :: ·)), s3) = (Res.ok (some ts), s) := k6
      clear k6
      simp only [Prod.mk.injEq, Res.ok.injEq] at k7
      obtain ⟨k7, rfl⟩ := k7
      cases ts' with
      | none => simp at k7
      | some l =>
        simp only [Option.map_some, Option.some.injEq] at k7
        subst k7
        have g2 := ih (p := p + 10 + n) (by rw [List.drop_drop, Nat.add_assoc]) (by simpa [List.drop_drop, Nat.add_assoc] using hnf) k5
        refine .cons ⟨hv, ?_⟩ g2
        rw [List.drop_drop]
        exact hR

/-! ## Flags -/

theorem flags_v2 : ∀ f : Byte, ((if some (decide (f &&& 0x80 ≠ 0)) = some true then 0x80 else 0) ||| (if decide (f &&& 0x40 ≠ 0) then (0x40 : Byte) else 0)) = f &&& 0xc0 := by
  intro ⟨⟨f⟩⟩
  revert f
  decide +kernel

theorem flags_v3 : ∀ f : Byte, ((if some (decide (f &&& 0x80 ≠ 0)) = some true then 0x80 else 0) ||| (if decide (f &&& 0x40 ≠ 0) then (0x40 : Byte) else 0) |||
    (if decide (f &&& 0x20 ≠ 0) then 0x20 else 0)) = f &&& 0xe0 := by
  intro ⟨⟨f⟩⟩
  revert f
  decide +kernel

theorem flags_v4 : ∀ f : Byte, ((if some (decide (f &&& 0x80 ≠ 0)) = some true then 0x80 else 0) ||| (if decide (f &&& 0x40 ≠ 0) then (0x40 : Byte) else 0) |||
    (if decide (f &&& 0x20 ≠ 0) then 0x20 else 0) ||| (if decide (f &&& 0x10 ≠ 0) then 0x10 else 0)) = f &&& 0xf0 := by
  intro ⟨⟨f⟩⟩
  revert f
  decide +kernel

theorem res_bind_ok {α β : Type} {x : Res α} {f : α → Res β} {b : β} (h : x.bind f = .ok b) : ∃ a, x = .ok a ∧ f a = .ok b := by
  cases x with
  | ok a => exact ⟨a, rfl, h⟩
  | throw e => cases h
  | ub u => cases h

theorem ext_some23 {z : Zlib} {u x : Bool} {c : Bytes} {r : Option Ext23 × Nat × List Frame4} (h : Tag23.parseBuf z u x c = .ok r) : r.1.isSome = x := by
  have key : ∀ b n, Tag23.parseAll z x b n = .ok r → r.1.isSome = x := by
    intro b n h
    unfold Tag23.parseAll at h
    obtain ⟨⟨e, p⟩, h1, h2⟩ := res_bind_ok h
    obtain ⟨⟨ms, pad⟩, -, h3⟩ := res_bind_ok h2
    obtain ⟨fs, -, h4⟩ := res_bind_ok h3
    cases h4
    cases x with
    | false => cases h1; rfl
    | true =>
      obtain ⟨e', -, h5⟩ := res_bind_ok h1
      cases h5
      rfl
  unfold Tag23.parseBuf at h
  split at h
  · split at h
    · obtain ⟨⟨b, n⟩, -, h2⟩ := res_bind_ok h
      exact key _ _ h2
    · cases h
  · exact key _ _ h

theorem ext_some24 {z : Zlib} {x : Bool} {c : Bytes} {r : Option Ext24 × Nat × List Frame4} (h : Tag24.parseBuf z x c = .ok r) : r.1.isSome = x := by
  unfold Tag24.parseBuf at h
  obtain ⟨⟨e, p⟩, h1, h2⟩ := res_bind_ok h
  obtain ⟨⟨ms, pad⟩, -, h3⟩ := res_bind_ok h2
  obtain ⟨fs, -, h4⟩ := res_bind_ok h3
  cases h4
  cases x with
  | false => cases h1; rfl
  | true =>
    obtain ⟨e', -, h5⟩ := res_bind_ok h1
    cases h5
    rfl

/-! ## Frames and padding -/

/-- The frame on its way. -/
def rawL (x : Laid) : Raw := ⟨x.id, x.flag, false, x.payload, x.body⟩

theorem rawL_bytes (ver : Ver) (x : Laid) : (rawL x).bytes ver = x.bytes ver := rfl

theorem rawBytes_laid (ver : Ver) (fs : List Laid) : rawBytes ver (fs.map rawL) = (fs.map (Laid.bytes ver)).flatten := by
  simp only [rawBytes, List.map_map, Function.comp_def, rawL_bytes]

theorem laid_raw {ver : Ver} {x : Laid} (h : x.Ok ver) : (rawL x).Ok ver := by
  obtain ⟨h3, h4, h5, h6, h7⟩ := h
  obtain ⟨w', e, -, hrt⟩ := body_rt ver _ _ h3
  rw [h4] at e
  cases e
  refine ⟨h5, h6, h7, ?_, nofun, hrt⟩
  intro e
  have e : x.id = mkId4 'E' 'N' 'C' 'R' := e
  rw [e] at h3
  have : kind4 (mkId4 'E' 'N' 'C' 'R') = .encr := by decide
  rw [this] at h3
  revert h3
  cases x.body <;> exact id

/-- The payload of a frame. -/
def payloadOf (f : Frame4) : Bytes := match f.body.serialize with | .ok b => b | _ => []

theorem laid_storable {z : Zlib} {ver : Ver} {fs : List Laid} (h : ∀ x ∈ fs, x.Ok ver) :
    StorableFrames z ver ((fs.map rawL).map (Raw.frame ver)) payloadOf := by
  intro f hf
  simp only [List.map_map, List.mem_map, Function.comp_def] at hf
  obtain ⟨x, hx, rfl⟩ := hf
  obtain ⟨h3, h4, h5, h6, h7⟩ := h x hx
  have e : payloadOf ((rawL x).frame ver) = x.payload := by
    show (match x.body.serialize with | .ok b => b | _ => []) = _
    rw [h4]
  rw [e]
  exact ⟨.inl rfl, ⟨rfl, rfl, rfl, rfl⟩, h3, h4, h5, h6, h7⟩

theorem laid_size {z : Zlib} {ver : Ver} {fs : List Laid} (h : ∀ x ∈ fs, x.Ok ver) (np : Bool) :
    ∃ gs, Frame4.sizeAll z ver false np ((fs.map rawL).map (Raw.frame ver)) = .ok ((fs.map (Laid.bytes ver)).flatten.length, gs) := by
  have hs := laid_storable (z := z) h
  obtain ⟨gs, h1, h2⟩ := sizeAll_ready z false np (storable_ready hs) (storable_writable hs)
  refine ⟨gs, ?_⟩
  rw [h1]
  simp only [Bool.false_eq_true, if_false]
  rw [(refreshed_clean h2).2.2]
  congr 2
  have : ∀ l : List Laid, (∀ x ∈ l, x.Ok ver) →
      (rawBytes ver (((l.map rawL).map (Raw.frame ver)).map fun f => rawOf ver f (payloadOf f))).length = (l.map (Laid.bytes ver)).flatten.length := by
    intro l
    induction l with
    | nil => intro _; rfl
    | cons x l ih =>
      intro hl
      simp only [List.map_cons, rawBytes_cons, List.length_append, List.flatten_cons, Raw.length]
      rw [ih fun y hy => hl y (by simp [hy]), ← rawL_bytes, Raw.length]
      have e : payloadOf ((rawL x).frame ver) = x.payload := by
        show (match x.body.serialize with | .ok b => b | _ => []) = _
        rw [(hl x (by simp)).2.1]
      rw [show (rawOf ver ((rawL x).frame ver) (payloadOf ((rawL x).frame ver))).w = x.payload from e]
      rfl
  exact this fs h

theorem parse_laid23 (z : Zlib) {c : Bytes} {fs : List Laid} {pad : Nat} (h : LaidOut .v3 c fs pad) :
    Tag23.parseBuf z false false c = .ok (none, pad, (fs.map rawL).map (Raw.frame .v3)) := by
  have := parseBuf23_of z false c none (fs.map rawL) pad nofun
    (by intro r hr; obtain ⟨x, hx, rfl⟩ := List.mem_map.1 hr; exact laid_raw (h.1 x hx))
    (by rw [rawBytes_laid, if_neg (by decide)]; exact h.2)
  exact this

theorem parse_laid24 (z : Zlib) {c : Bytes} {fs : List Laid} {pad : Nat} (h : LaidOut .v4 c fs pad) :
    Tag24.parseBuf z false c = .ok (none, pad, (fs.map rawL).map (Raw.frame .v4)) := by
  have hr : ∀ r ∈ fs.map rawL, r.Ok .v4 := by
    intro r hr; obtain ⟨x, hx, rfl⟩ := List.mem_map.1 hr; exact laid_raw (h.1 x hx)
  have e : c = [] ++ rawBytes .v4 (fs.map rawL) ++ List.replicate pad 0 ++ [] := by
    rw [rawBytes_laid, h.2]; simp
  have el : c.length = ([] : Bytes).length + (rawBytes .v4 (fs.map rawL)).length + pad := by
    rw [rawBytes_laid, h.2]; simp
  have h1 := encrScan_layout z .v4 (fs.map rawL) pad [] [] hr
  have h2 := framePass_layout z .v4 (fs.map rawL) pad [] [] [] hr
  rw [← e, ← el] at h1 h2
  unfold Tag24.parseBuf
  simp only [Bool.false_eq_true, if_false, Res.ok_bind]
  rw [show (0 : Nat) = ([] : Bytes).length from rfl, h1]
  simp only [Res.ok_bind]
  rw [h2]
  rfl

theorem parts_laid (ver : Ver) (fs : List Laid) :
    ((fs.map rawL).map (Raw.frame ver)).map Json.parts4 = fs.map fun x => ([x.id.a, x.id.b, x.id.c, x.id.d], x.body) := by
  simp only [List.map_map, Function.comp_def]
  rfl

theorem parse_laid22 {c : Bytes} {fs : List Laid2} {pad : Nat} (h : LaidOut2 c fs pad) :
    Tag22.parseBuf false c = .ok (fs.map fun x => Frame22.new x.id x.body, pad) := by
  have := parseBuf_of false c c (fs.map fun x => (x.id, x.payload, x.body)) pad
    (by
      intro f hf
      obtain ⟨x, hx, rfl⟩ := List.mem_map.1 hf
      obtain ⟨h3, h4, h5, h6, h7⟩ := h.1 x hx
      obtain ⟨w', e, -, hrt⟩ := body_rt .v2 _ _ h3
      rw [h4] at e
      cases e
      exact ⟨h5, h6, h7, hrt⟩)
    (by rw [h.2]; simp only [List.map_map, Function.comp_def])
    (by rw [if_neg (by decide)])
  rw [this]
  simp only [List.map_map, Function.comp_def]

/-- The payload of a frame. -/
def payloadOf2 (f : Frame22) : Bytes := match f.body.serialize with | .ok b => b | _ => []

theorem laid_size2 {fs : List Laid2} (h : ∀ x ∈ fs, x.Ok) (hn : ∀ x ∈ fs, ¬ NeedsStuffing (frame22 x.id x.payload)) :
    ∃ gs, Tag22.framesSize false (fs.map fun x => Frame22.new x.id x.body) = .ok ((frames22 (fs.map fun x => (x.id, x.payload))).length, gs) := by
  obtain ⟨gs, h1, -⟩ := framesWrite_current false payloadOf2 (fs.map fun x => Frame22.new x.id x.body) (by
    intro f hf
    obtain ⟨x, hx, rfl⟩ := List.mem_map.1 hf
    obtain ⟨-, h4, -, -, h7⟩ := h x hx
    have e : payloadOf2 (Frame22.new x.id x.body) = x.payload := by
      show (match x.body.serialize with | .ok b => b | _ => []) = _
      rw [h4]
    rw [e]
    exact ⟨⟨h4, .inl rfl⟩, h7⟩)
  refine ⟨gs, ?_⟩
  rw [framesSize_eq, h1]
  simp only [Res.ok_bind, Bool.false_eq_true, if_false]
  congr 2
  unfold frames22
  simp only [List.map_map, Function.comp_def, List.length_flatten]
  congr 1
  refine List.map_congr_left fun x hx => ?_
  have e : payloadOf2 (Frame22.new x.id x.body) = x.payload := by
    show (match x.body.serialize with | .ok b => b | _ => []) = _
    rw [(h x hx).2.1]
  rw [e]
  have := (growth_eq_zero_iff (frame22 x.id x.payload)).2 (hn x hx)
  rw [unsync_length]
  show (frame22 x.id x.payload).length + growth (frame22 x.id x.payload) = _
  rw [this, Nat.add_zero]

end Scribbu.Heading
