import Verif.Proofs.History

/-! Lemmas for C192. -/

namespace Scribbu.History
open Scribbu Spec Process Path Backup Replace FM Scribbu.Props

/-- At this moment, the audio is in the file, or the file as it was is in a backup. -/
def Alive (a d0 : Bytes) (p : Path) (s : FS) : Prop := (∃ d, s.get p = some d ∧ Survives a d0 d) ∨ ∃ q, Bk p q ∧ s.get q = some d0

theorem some_v1 : ∃ w, V1Bytes w := ⟨TAG ++ List.replicate 125 0, .inl ⟨_, rfl, by simp⟩⟩

theorem survives_carries {a d0 d : Bytes} (h : Carries a d) : Survives a d0 d := by
  obtain ⟨tags, v1, rfl, hT, hv⟩ := h
  rcases hv with rfl | hv
  · obtain ⟨w, hw⟩ := some_v1
    exact .inl ⟨tags, w, [], rfl, hT, hw, List.nil_prefix⟩
  · exact .inl ⟨tags, v1, v1, rfl, hT, hv, List.prefix_refl _⟩

theorem alive_keeps {a d0 : Bytes} {p : Path} {s : FS} (h : Keeps a p s) : Alive a d0 p s := by
  obtain ⟨d, h1, h2⟩ := h
  exact .inl ⟨d, h1, survives_carries h2⟩

/-- However a replacement by copying goes. -/
theorem replace_alive {z : Zlib} {e : Env} {pth : Path} {ts : List AnyTag} {au : ApplyUnsync} {keep : Bool} (hf : Fit e pth)
    {s0 : FS} {a old : Bytes} (h0 : s0.get (absolute e.cwd pth) = some old) (hc : Carries a old)
    (hn : ∀ b ts', Tagset.copyContents (anyI z) (some old) au ts = .ok (b, ts') → Carries a b) :
    Holds (replaceTagsetCopy (anyI z) e pth ts au keep) (· = s0) (Alive a old (absolute e.cwd pth))
      (fun r s => match r with | .ok _ => Keeps a (absolute e.cwd pth) s | _ => Alive a old (absolute e.cwd pth) s) := by
  have key : ∃ new, (∀ b ts', Tagset.copyContents (anyI z) (some old) au ts = .ok (b, ts') → new = b) ∧ Carries a new := by
    cases hcc : Tagset.copyContents (anyI z) (some old) au ts with
    | ok r => exact ⟨r.1, by rintro b ts' h; cases h; rfl, hn r.1 r.2 hcc⟩
    | throw x => exact ⟨old, by simp, hc⟩
    | ub u => exact ⟨old, by simp, hc⟩
  obtain ⟨new, hn1, hn2⟩ := key
  have kept : ∀ s, Kept (absolute e.cwd pth) old new s → Alive a old (absolute e.cwd pth) s := by
    rintro s (h | h | h)
    · exact .inl ⟨_, h, survives_carries hc⟩
    · exact .inl ⟨_, h, survives_carries hn2⟩
    · exact .inr h
  refine (replace_holds (anyI z) e pth ts au keep hf.1 hf.2.1 (fit_bk hf) old s0 h0 new hn1).weaken (fun s h => h) (fun s h => kept s h.1) ?_
  intro r s h
  cases r with
  | ok u => exact ⟨_, h.2.1, hn2⟩
  | throw x => exact kept s h.1
  | ub u => exact kept s h.1

/-- Writing tags over others. -/
theorem overwrite_alive {p : Path} {a v1 : Bytes} {olds news : List Bytes} (ho : ∀ t ∈ olds, CompleteTag t) (hn : ∀ t ∈ news, CompleteTag t)
    (hv : v1 = [] ∨ V1Bytes v1) (hl : news.flatten.length = olds.flatten.length) :
    Holds (overwrite p (news.flatten ++ (a ++ v1))) (fun s => s.get p = some (olds.flatten ++ (a ++ v1))) (Alive a (olds.flatten ++ (a ++ v1)) p)
      (fun r s => match r with | .ok _ => Keeps a p s | _ => Alive a (olds.flatten ++ (a ++ v1)) p s) := by
  intro s hs
  unfold overwrite
  rw [hs]
  refine ⟨?_, ⟨_, FS.get_put_same _ _ _, news, v1, rfl, hn, hv⟩⟩
  intro x hx
  obtain ⟨i, -, rfl⟩ := List.mem_map.1 hx
  refine .inl ⟨_, FS.get_put_same _ _ _, ?_⟩
  by_cases hi : i ≤ news.flatten.length
  · refine .inr ⟨olds, news, i, v1, rfl, ho, hv, hn, hl, hi, ?_⟩
    rw [List.take_append_of_le_length hi, List.drop_append_of_le_length (by omega), List.append_assoc]
  · refine survives_carries ⟨news, v1, ?_, hn, hv⟩
    have hi' : i = news.flatten.length + (i - news.flatten.length) := by omega
    have hi'' : i = olds.flatten.length + (i - news.flatten.length) := by omega
    have e1 : (news.flatten ++ (a ++ v1)).take i = news.flatten ++ (a ++ v1).take (i - news.flatten.length) := by
      conv => lhs; rw [hi']
      exact List.take_length_add_append _
    have e2 : (olds.flatten ++ (a ++ v1)).drop i = (a ++ v1).drop (i - news.flatten.length) := by
      conv => lhs; rw [hi'']
      exact List.drop_length_add_append _
    rw [e1, e2, List.append_assoc, List.take_append_drop]

theorem v1_alive {p : Path} {t : V1Tag} (ht : t.WF) {a d0 : Bytes} (ha : Distinct a) :
    Holds (replaceId3v1Steps p t) (Keeps a p) (Alive a d0 p) (fun _ => Keeps a p) := by
  refine Holds.each ?_
  rintro s0 ⟨d, h0, tags, v1, rfl, hT, hv⟩
  obtain ⟨w, hw, hwb⟩ := wf_bytes ht
  have hrm := remove_v1 (p := tags.flatten) ha hv
  have cut : Carries a (tags.flatten ++ a) := ⟨tags, [], by simp, hT, .inl rfl⟩
  unfold replaceId3v1Steps
  refine Holds.bind (mid := fun o s => o = some (tags.flatten ++ (a ++ v1)) ∧ s = s0) (Holds.look _ ?_) ?_
  · rintro s rfl
    exact ⟨h0, rfl⟩
  intro o
  by_cases ho : o = some (tags.flatten ++ (a ++ v1))
  case neg => rintro s ⟨h, -⟩; exact absurd h ho
  subst ho
  simp only
  rw [hrm, hw]
  refine Holds.bind (mid := fun b s => b = tags.flatten ++ a ∧ s = s0) (Holds.lift _ ?_) ?_
  · rintro s ⟨-, rfl⟩
    exact ⟨rfl, rfl⟩
  intro b
  by_cases hb : b = tags.flatten ++ a
  case neg => rintro s ⟨h, -⟩; exact absurd h hb
  subst hb
  refine Holds.bind (mid := fun _ s => s.get p = some (tags.flatten ++ a)) ?_ ?_
  · by_cases hlt : (tags.flatten ++ a).length < (tags.flatten ++ (a ++ v1)).length
    · rw [if_pos hlt]
      rintro s ⟨-, rfl⟩
      unfold truncate
      rw [h0]
      have ht : (tags.flatten ++ (a ++ v1)).take (tags.flatten ++ a).length = tags.flatten ++ a := by rw [← List.append_assoc, List.take_left]
      simp only [ht]
      refine ⟨?_, FS.get_put_same _ _ _⟩
      intro x hx
      simp only [List.mem_singleton] at hx
      subst hx
      exact .inl ⟨_, FS.get_put_same _ _ _, survives_carries cut⟩
    · rw [if_neg hlt]
      refine Holds.pure _ ?_
      rintro s ⟨-, rfl⟩
      have : v1 = [] := List.length_eq_zero_iff.1 (by simp only [List.length_append] at hlt; omega)
      subst this
      simpa using h0
  intro _
  refine Holds.bind (mid := fun x s => x = w ∧ s.get p = some (tags.flatten ++ a)) (Holds.lift _ ?_) ?_
  · intro s h
    exact ⟨rfl, h⟩
  intro x
  rintro s ⟨rfl, h1⟩
  unfold Process.append
  rw [h1]
  refine ⟨?_, ⟨_, FS.get_put_same _ _ _, tags, x, by simp, hT, .inr hwb⟩⟩
  intro y hy
  obtain ⟨i, -, rfl⟩ := List.mem_map.1 hy
  exact .inl ⟨_, FS.get_put_same _ _ _, .inl ⟨tags, x, x.take i, by simp, hT, hwb, List.take_prefix _ _⟩⟩

/-- One run, at every moment of it. -/
theorem process_alive {z : Zlib} {mk2 mk3 mk4 : Id3v2Info → SM AnyTag} {P : Processor AnyTag} {e : Env} {pth : Path} (hf : Fit e pth)
    {a : Bytes} (ha : Distinct a) {s0 : FS} {d : Bytes} (h0 : s0.get (absolute e.cwd pth) = some d) (hc : Carries a d)
    (hs : CanSave z mk2 mk3 mk4 P d) :
    Holds (processFile (anyI z) mk2 mk3 mk4 P e pth) (· = s0) (Alive a d (absolute e.cwd pth)) (fun _ => Alive a d (absolute e.cwd pth)) := by
  have kept : Alive a d (absolute e.cwd pth) s0 := .inl ⟨d, h0, survives_carries hc⟩
  unfold processFile
  refine Holds.bind (mid := fun o s => o = some d ∧ s = s0) (Holds.look _ ?_) ?_
  · rintro s rfl
    exact ⟨h0, rfl⟩
  intro o
  by_cases ho : o = some d
  case neg => rintro s ⟨h, -⟩; exact absurd h ho
  subst ho
  refine Holds.bind (mid := fun r s => readTagset mk2 mk3 mk4 (some d) = .ok r ∧ s = s0) (Holds.lift _ ?_) ?_
  · rintro s ⟨-, rfl⟩
    cases hz : readTagset mk2 mk3 mk4 (some d) with
    | ok r => exact ⟨rfl, rfl⟩
    | throw x => exact kept
    | ub u => exact kept
  rintro ⟨v2, v1⟩
  by_cases hr : readTagset mk2 mk3 mk4 (some d) = .ok (v2, v1)
  case neg => rintro s ⟨h, -⟩; exact absurd h hr
  refine Holds.bind (mid := fun r s => edit P v2 v1 = .ok r ∧ s = s0) (Holds.lift _ ?_) ?_
  · rintro s ⟨-, rfl⟩
    cases hz : edit P v2 v1 with
    | ok r => exact ⟨rfl, rfl⟩
    | throw x => exact kept
    | ub u => exact kept
  rintro ⟨dirty, v2', v1'⟩
  by_cases he : edit P v2 v1 = .ok (dirty, v2', v1')
  case neg => rintro s ⟨h, -⟩; exact absurd h he
  obtain ⟨hsz, hs⟩ := hs
  obtain ⟨c1, c2, c3, c4⟩ := hs v2 v1 dirty v2' v1' hr he
  unfold writeTagset
  cases dirty with
  | false =>
    refine Holds.pure _ ?_
    rintro s ⟨-, rfl⟩
    exact kept
  | true =>
    cases hd : P.dryRun with
    | true =>
      refine Holds.pure _ ?_
      rintro s ⟨-, rfl⟩
      exact kept
    | false =>
      simp only [if_true, Bool.false_eq_true, if_false]
      generalize hau : (if P.adjustUnsync then ApplyUnsync.asNeeded else .never) = au at c2
      have hc' := hc
      obtain ⟨tags, v, rfl, hT, hv⟩ := hc'
      have hnh := noHeader_audio ha.start hv
      have hlen : tags.flatten.length < 2 ^ 28 := hsz _ (Tagset.tagsetSize_tags tags _ hT hnh)
      have hne : a ++ v ≠ [] := by
        intro h
        have := congrArg List.length h
        have := ha.long
        simp only [List.length_append, List.length_nil] at *
        omega
      refine Holds.bind (mid := fun _ => Keeps a (absolute e.cwd pth)) ?_ ?_
      · cases hb : P.createBackups with
        | true =>
          refine (replace_alive hf h0 hc ?_).weaken (fun s h => h.2) (fun _ h => h) ?_
          · intro b ts' hcc
            obtain ⟨b', ts2, news, e1, e2, -, e4⟩ := C33_copy_partial z tags (a ++ v) au v2' hT hnh c1 c2
            rw [e1] at hcc
            cases hcc
            exact ⟨_, v, e2, news_complete e4, hv⟩
          · intro r s h
            cases r <;> exact h
        | false =>
          simp only [Bool.false_eq_true, if_false]
          unfold maybeEmplaceSteps
          refine Holds.bind (mid := fun o s => o = some (tags.flatten ++ (a ++ v)) ∧ s = s0) (Holds.look _ ?_) ?_
          · rintro s ⟨-, rfl⟩
            exact ⟨h0, rfl⟩
          intro o
          by_cases ho : o = some (tags.flatten ++ (a ++ v))
          case neg => rintro s ⟨h, -⟩; exact absurd h ho
          subst ho
          cases hm : Tagset.maybeEmplace (anyI z) (some (tags.flatten ++ (a ++ v))) au .reducePaddingEvenly v2' with
          | throw x => exact Holds.lift _ (by rintro s ⟨-, rfl⟩; exact kept)
          | ub u => exact Holds.lift _ (by rintro s ⟨-, rfl⟩; exact kept)
          | ok r =>
            obtain ⟨how, new, ts'⟩ := r
            obtain ⟨m1, news, m2, m3, m4⟩ := maybe_carries hT hnh hne c1 hlen c2 (c3 hb) hm
            have hnew : Carries a new := ⟨news, v, m2, m3, hv⟩
            cases how with
            | created => exact absurd rfl m1
            | emplaced =>
              subst m2
              refine (overwrite_alive hT m3 hv (m4 rfl).1).weaken (fun s h => h.2 ▸ h0) (fun _ h => h) ?_
              intro r s h
              cases r <;> exact h
            | copied =>
              simp only
              refine Holds.bind (mid := fun r s => Tagset.sizes (anyI z) au v2' = .ok r ∧ s = s0) (Holds.lift _ ?_) ?_
              · rintro s ⟨-, rfl⟩
                cases hz : Tagset.sizes (anyI z) au v2' with
                | ok r => exact ⟨rfl, rfl⟩
                | throw x => exact kept
                | ub u => exact kept
              rintro ⟨n1, n2, ts1⟩
              by_cases hz : Tagset.sizes (anyI z) au v2' = .ok (n1, n2, ts1)
              case neg => rintro s ⟨h, -⟩; exact absurd h hz
              refine (replace_alive hf h0 hc ?_).weaken (fun s h => h.2) (fun _ h => h) ?_
              · intro b ts2 hcc
                rw [copied_same hm hz] at hcc
                cases hcc
                exact hnew
              · intro r s h
                cases r <;> exact h
      intro _
      cases v1' with
      | none => exact Holds.pure _ fun s h => alive_keeps h
      | some t => exact (v1_alive (c4 t rfl) ha).weaken (fun _ h => h) (fun _ h => h) fun _ _ h => alive_keeps h

end Scribbu.History
