import Verif.Spec.Shared
import Verif.Proofs.Frame23

/-! Lemmas about threads that share a tag. -/

namespace Scribbu.Shared
open Scribbu.Spec.Shared

theorem upd_same {α : Type} (f : Nat → α) (k : Nat) (a : α) : upd f k a k = a := by simp [upd]
theorem upd_other {α : Type} (f : Nat → α) {k j : Nat} (a : α) (h : j ≠ k) : upd f k a j = f j := by simp [upd, h]

/-- A call, by way of `fresh`. -/
theorem single_eq (z : Zlib) (ver : Ver) (f : Frame4) (a : Ask) :
    single z ver f a = (f.fresh z ver a.last).bind fun g => .ok (a.answer z g, g) := by
  cases a <;> simp only [single, Frame4.serializedSize, Frame4.needsUnsync, Frame4.write, Frame4.crc, Ask.last, Ask.answer] <;>
    cases f.fresh z ver _ <;> rfl

/-- What is made does not depend on what is in the caches. -/
theorem fresh_stale (z : Zlib) (ver : Ver) (f : Frame4) (l : Bool) (p u : Bytes) (n : Nat) :
    { f with dirty := true, plain := p, unsynced := u, nfs := n }.fresh z ver l = { f with dirty := true }.fresh z ver l := by
  unfold Frame4.fresh Frame4.header Frame4.header23 Frame4.header24
  simp only [if_true]

/-- What is made differs from what was there in the caches only. -/
theorem fresh_fields {z : Zlib} {ver : Ver} {f g : Frame4} {l : Bool} (h : { f with dirty := true }.fresh z ver l = .ok g) :
    g = { f with dirty := false, plain := g.plain, unsynced := g.unsynced, nfs := g.nfs } := by
  unfold Frame4.fresh at h
  simp only [if_true] at h
  rw [Res.bind_eq_ok] at h
  obtain ⟨w, _, h⟩ := h
  split at h
  · cases h
  · rw [Res.bind_eq_ok] at h
    obtain ⟨w', _, h⟩ := h
    rw [Res.bind_eq_ok] at h
    obtain ⟨w'', _, h⟩ := h
    cases h
    rfl

/-- What comes back depends on the frames that are used. -/
theorem alone_congr (z : Zlib) (ver : Ver) {p : List Call} {fs gs : Nat → Option Frame4} (h : ∀ k, Uses p k → fs k = gs k) :
    alone z ver p fs = alone z ver p gs := by
  induction p generalizing fs gs with
  | nil => rfl
  | cons c cs ih =>
    unfold alone
    rw [← h c.frame ⟨c, by simp, rfl⟩]
    split
    · rfl
    · split
      · congr 1
        apply ih
        intro k hk
        by_cases e : k = c.frame
        · simp [e]
        · simp only [e, if_false]
          obtain ⟨d, h1, h2⟩ := hk
          exact h k ⟨d, by simp [h1], h2⟩
      · rfl
      · rfl

/-- The frames as a thread will find them when it is done with what it is about to do. -/
def ahead (s : State) (t : Thread) : Nat → Option Frame4 :=
  match t.phase, t.todo with
  | .settle, c :: _ => match s.frames c.frame with
    | some f => upd s.frames c.frame (some { f with dirty := false })
    | none => s.frames
  | _, _ => s.frames

/-- What holds of a thread. -/
structure Good (z : Zlib) (ver : Ver) (fs : List Frame4) (p : List Call) (s : State) (t : Thread) : Prop where
  sub : ∀ c ∈ t.todo, c ∈ p
  same : alone z ver p (fun k => fs[k]?) = t.done ++ alone z ver t.todo (ahead s t)
  busy : ∀ c cs, t.todo = c :: cs → t.phase = .clear ∨ t.phase = .fill ∨ t.phase = .settle →
    (∃ f, fs[c.frame]? = some f ∧ f.dirty = true) ∧ ∃ f, s.frames c.frame = some f ∧ f.dirty = true
  use : ∀ c cs, t.todo = c :: cs → t.phase = .use → ∃ f, s.frames c.frame = some f ∧ f.dirty = false

/-- What holds of all. -/
structure Inv (z : Zlib) (ver : Ver) (fs : List Frame4) (progs : Nat → List Call) (s : State) : Prop where
  good : ∀ i, Good z ver fs (progs i) s (s.threads i)
  none : ∀ k, fs[k]? = .none → s.frames k = .none
  clean : ∀ k f, fs[k]? = some f → f.dirty = false → s.frames k = some f
  log : ∀ a ∈ s.log, Uses (progs a.thread) a.frame ∧ (a.write = true → ∃ f, fs[a.frame]? = some f ∧ f.dirty = true)

theorem inv_start (z : Zlib) (ver : Ver) (fs : List Frame4) (progs : Nat → List Call) : Inv z ver fs progs (start fs progs) where
  good i := {
    sub := fun _ h => h
    same := by simp [start, ahead]
    busy := by intro c cs _ h; simp [start] at h
    use := by intro c cs _ h; simp [start] at h }
  none k h := h
  clean k f h _ := h
  log a h := by simp [start] at h

/-- A thread is not disturbed by changes to frames that it does not use. -/
theorem good_frames {z : Zlib} {ver : Ver} {fs : List Frame4} {p : List Call} {s : State} {t : Thread} (h : Good z ver fs p s t)
    {s' : State} (hf : ∀ k, Uses p k → s'.frames k = s.frames k) : Good z ver fs p s' t := by
  refine ⟨h.sub, ?_, ?_, ?_⟩
  · rw [h.same]
    congr 1
    apply alone_congr
    rintro k ⟨d, hd, rfl⟩
    have hk := hf d.frame ⟨d, h.sub d hd, rfl⟩
    cases e1 : t.phase <;> cases e2 : t.todo <;> simp only [ahead, e1, e2] <;> try exact hk.symm
    rename_i c cs
    have hc := hf c.frame ⟨c, h.sub c (by rw [e2]; simp), rfl⟩
    rw [hc]
    cases s.frames c.frame with
    | none => exact hk.symm
    | some g =>
      simp only [upd]
      split
      · rfl
      · exact hk.symm
  · intro c cs e ph
    obtain ⟨h1, h2⟩ := h.busy c cs e ph
    exact ⟨h1, by rw [hf c.frame ⟨c, h.sub c (by rw [e]; simp), rfl⟩]; exact h2⟩
  · intro c cs e ph
    rw [hf c.frame ⟨c, h.sub c (by rw [e]; simp), rfl⟩]
    exact h.use c cs e ph

/-- A step, put together from what holds of the thread that makes it and what it leaves alone. -/
theorem inv_of {z : Zlib} {ver : Ver} {fs : List Frame4} {progs : Nat → List Call} {s s' : State} {i : Nat} (h : Inv z ver fs progs s)
    (hp : Prepared fs progs)
    (ht : ∀ j, j ≠ i → s'.threads j = s.threads j)
    (hf : ∀ k, s'.frames k = s.frames k ∨ (Uses (progs i) k ∧ ∃ f, fs[k]? = some f ∧ f.dirty = true))
    (hl : ∀ a ∈ s'.log, a ∈ s.log ∨ (a.thread = i ∧ Uses (progs i) a.frame ∧ (a.write = true → ∃ f, fs[a.frame]? = some f ∧ f.dirty = true)))
    (hi : Good z ver fs (progs i) s' (s'.threads i)) : Inv z ver fs progs s' where
  good j := by
    by_cases e : j = i
    · rw [e]; exact hi
    · rw [ht j e]
      apply good_frames (h.good j)
      intro k hk
      rcases hf k with h1 | ⟨h1, f, h2, h3⟩
      · exact h1
      · rcases hp k f h2 with h4 | h4
        · rw [h3] at h4; cases h4
        · exact absurd (h4 j i hk h1) e
  none k hk := by
    rcases hf k with h1 | ⟨_, f, h2, _⟩
    · rw [h1]; exact h.none k hk
    · rw [hk] at h2; cases h2
  clean k f hk hd := by
    rcases hf k with h1 | ⟨_, g, h2, h3⟩
    · rw [h1]; exact h.clean k f hk hd
    · rw [hk] at h2; cases h2; rw [hd] at h3; cases h3
  log a ha := by
    rcases hl a ha with h1 | ⟨h1, h2, h3⟩
    · exact h.log a h1
    · rw [h1]; exact ⟨h2, h3⟩

/-- The thread that stops. -/
theorem good_stop {z : Zlib} {ver : Ver} {fs : List Frame4} {p : List Call} {s : State} {d : List (Res Out)}
    (h : alone z ver p (fun k => fs[k]?) = d) : Good z ver fs p s ⟨[], .idle, d⟩ where
  sub c hc := by cases hc
  same := by simp [h, alone]
  busy c cs e := by cases e
  use c cs e := by cases e

theorem inv_step {z : Zlib} {ver : Ver} {fs : List Frame4} {progs : Nat → List Call} (hp : Prepared fs progs) {s : State} (i : Nat)
    (h : Inv z ver fs progs s) : Inv z ver fs progs (step z ver i s) := by
  have hg := h.good i
  unfold step
  split
  · exact h
  · rename_i c cs et
    have hu : Uses (progs i) c.frame := ⟨c, hg.sub c (by rw [et]; simp), rfl⟩
    have hsub : ∀ d ∈ c :: cs, d ∈ progs i := by rw [← et]; exact hg.sub
    have hsame := hg.same
    rw [et] at hsame
    split
    · rename_i en
      apply inv_of (i := i) h hp
      · intro j hj; exact upd_other _ _ hj
      · intro k; exact .inl rfl
      · intro a ha; exact .inl ha
      · simp only [upd_same]
        apply good_stop
        rw [hsame]
        have : ahead s (s.threads i) = s.frames := by
          unfold ahead
          split
          · rename_i c' cs' e1 e2
            rw [et] at e2; cases e2
            rw [en]
          · rfl
        rw [this]
        simp [alone, en]
    · rename_i f ef
      split
      · -- idle
        rename_i ep
        have ea : ahead s (s.threads i) = s.frames := by simp [ahead, ep]
        rw [ea] at hsame
        apply inv_of (i := i) h hp
        · intro j hj; exact upd_other _ _ hj
        · intro k; exact .inl rfl
        · intro a ha
          simp only [List.mem_append, List.mem_singleton] at ha
          rcases ha with ha | rfl
          · exact .inl ha
          · exact .inr ⟨rfl, hu, by simp⟩
        · simp only [upd_same]
          refine ⟨?_, ?_, ?_, ?_⟩
          · simpa [et] using hsub
          · simp only [et]
            rw [hsame]
            congr 2
            unfold ahead
            split <;> first | rfl | skip
            rename_i e1 e2
            simp only at e1
            split at e1 <;> cases e1
          · intro d ds e hph
            simp only [et] at e
            cases e
            simp only at hph
            split at hph
            · rename_i hd
              refine ⟨?_, f, ef, hd⟩
              cases eo : fs[c.frame]? with
              | none => rw [h.none _ eo] at ef; cases ef
              | some f0 =>
                refine ⟨f0, rfl, ?_⟩
                cases hd0 : f0.dirty with
                | true => rfl
                | false =>
                  rw [h.clean _ _ eo hd0] at ef; cases ef
                  rw [hd0] at hd; cases hd
            · simp at hph
          · intro d ds e hph
            simp only [et] at e
            cases e
            simp only at hph
            split at hph
            · cases hph
            · rename_i hd
              exact ⟨f, ef, by simpa using hd⟩
      · -- clear
        rename_i ep
        have ea : ahead s (s.threads i) = s.frames := by simp [ahead, ep]
        rw [ea] at hsame
        obtain ⟨hb1, f', hb2, hb3⟩ := hg.busy c cs et (.inl ep)
        rw [ef] at hb2; cases hb2
        apply inv_of (i := i) h hp
        · intro j hj; exact upd_other _ _ hj
        · intro k
          by_cases e : k = c.frame
          · rw [e]; exact .inr ⟨hu, hb1⟩
          · exact .inl (upd_other _ _ e)
        · intro a ha
          simp only [List.mem_append, List.mem_singleton] at ha
          rcases ha with ha | rfl
          · exact .inl ha
          · exact .inr ⟨rfl, hu, fun _ => hb1⟩
        · simp only [upd_same]
          refine ⟨?_, ?_, ?_, ?_⟩
          · simpa [et] using hsub
          · simp only [et]
            rw [hsame]
            congr 1
            simp only [alone, ahead, ef, upd_same]
            have e1 : single z ver { f with plain := [], unsynced := [] } c.ask = single z ver f c.ask := by
              rw [single_eq, single_eq]
              have := fresh_stale z ver f c.ask.last [] [] f.nfs
              have e2 : { f with dirty := true } = f := by rw [← hb3]
              rw [e2] at this
              rw [← this, ← hb3]
            rw [e1]
            split
            · congr 1
              apply alone_congr
              intro k _
              by_cases e : k = c.frame
              · simp [e]
              · simp [e, upd]
            · rfl
            · rfl
          · intro d ds e hph
            simp only [et] at e
            cases e
            exact ⟨hb1, _, upd_same _ _ _, hb3⟩
          · intro d ds e hph
            cases hph
      · -- fill
        rename_i ep
        have ea : ahead s (s.threads i) = s.frames := by simp [ahead, ep]
        rw [ea] at hsame
        obtain ⟨hb1, f', hb2, hb3⟩ := hg.busy c cs et (.inr (.inl ep))
        rw [ef] at hb2; cases hb2
        have e2 : { f with dirty := true } = f := by rw [← hb3]
        split
        · rename_i g eg
          have hgf := fresh_fields eg
          rw [e2] at eg
          apply inv_of (i := i) h hp
          · intro j hj; exact upd_other _ _ hj
          · intro k
            by_cases e : k = c.frame
            · rw [e]; exact .inr ⟨hu, hb1⟩
            · exact .inl (upd_other _ _ e)
          · intro a ha
            simp only [List.mem_append, List.mem_singleton] at ha
            rcases ha with ha | rfl
            · exact .inl ha
            · exact .inr ⟨rfl, hu, fun _ => hb1⟩
          · simp only [upd_same]
            refine ⟨?_, ?_, ?_, ?_⟩
            · simpa [et] using hsub
            · simp only [et]
              rw [hsame]
              congr 1
              simp only [alone, ahead, ef, upd_same]
              have e3 : { f with dirty := false, plain := g.plain, unsynced := g.unsynced, nfs := g.nfs } = g := hgf.symm
              have e4 : single z ver f c.ask = .ok (c.ask.answer z g, g) := by rw [single_eq, eg]; rfl
              have e5 : single z ver g c.ask = .ok (c.ask.answer z g, g) := by
                rw [single_eq, Scribbu.fresh4_clean z ver _ (Scribbu.fresh4_ok_clean eg).1]; rfl
              rw [e3, e4, e5]
              simp only
              congr 1
              apply alone_congr
              intro k _
              by_cases e : k = c.frame
              · simp [e]
              · simp [e, upd]
            · intro d ds e hph
              simp only [et] at e
              cases e
              exact ⟨hb1, _, upd_same _ _ _, hb3⟩
            · intro d ds e hph
              cases hph
        · rename_i e eg
          rw [e2] at eg
          apply inv_of (i := i) h hp
          · intro j hj; exact upd_other _ _ hj
          · intro k; exact .inl rfl
          · intro a ha; exact .inl ha
          · simp only [upd_same]
            apply good_stop
            rw [hsame]
            have e4 : single z ver f c.ask = .throw e := by rw [single_eq, eg]; rfl
            simp only [alone, ef, e4]
        · rename_i e eg
          rw [e2] at eg
          apply inv_of (i := i) h hp
          · intro j hj; exact upd_other _ _ hj
          · intro k; exact .inl rfl
          · intro a ha; exact .inl ha
          · simp only [upd_same]
            apply good_stop
            rw [hsame]
            have e4 : single z ver f c.ask = .ub e := by rw [single_eq, eg]; rfl
            simp only [alone, ef, e4]
      · -- settle
        rename_i ep
        have ea : ahead s (s.threads i) = upd s.frames c.frame (some { f with dirty := false }) := by simp [ahead, ep, et, ef]
        rw [ea] at hsame
        obtain ⟨hb1, f', hb2, hb3⟩ := hg.busy c cs et (.inr (.inr ep))
        rw [ef] at hb2; cases hb2
        apply inv_of (i := i) h hp
        · intro j hj; exact upd_other _ _ hj
        · intro k
          by_cases e : k = c.frame
          · rw [e]; exact .inr ⟨hu, hb1⟩
          · exact .inl (upd_other _ _ e)
        · intro a ha
          simp only [List.mem_append, List.mem_singleton] at ha
          rcases ha with ha | rfl
          · exact .inl ha
          · exact .inr ⟨rfl, hu, fun _ => hb1⟩
        · simp only [upd_same]
          refine ⟨?_, ?_, ?_, ?_⟩
          · simpa [et] using hsub
          · simp only [et]
            rw [hsame]
            rfl
          · intro d ds e hph
            simp at hph
          · intro d ds e hph
            simp only [et] at e
            cases e
            exact ⟨_, upd_same _ _ _, rfl⟩
      · -- use
        rename_i ep
        have ea : ahead s (s.threads i) = s.frames := by simp [ahead, ep]
        rw [ea] at hsame
        obtain ⟨f', hb2, hb3⟩ := hg.use c cs et ep
        rw [ef] at hb2; cases hb2
        apply inv_of (i := i) h hp
        · intro j hj; exact upd_other _ _ hj
        · intro k; exact .inl rfl
        · intro a ha
          simp only [List.mem_append, List.mem_singleton] at ha
          rcases ha with ha | rfl
          · exact .inl ha
          · exact .inr ⟨rfl, hu, by simp⟩
        · simp only [upd_same]
          refine ⟨fun d hd => hsub d (by simp [hd]), ?_, ?_, ?_⟩
          · rw [hsame]
            have e4 : single z ver f c.ask = .ok (c.ask.answer z f, f) := by
              rw [single_eq, Scribbu.fresh4_clean z ver _ hb3]; rfl
            simp only [alone, ef, e4, ahead, List.append_assoc, List.singleton_append]
            congr 2
            apply alone_congr
            intro k _
            by_cases e : k = c.frame
            · simp [e, ef]
            · simp [e]
          · intro d ds e hph
            simp at hph
          · intro d ds e hph
            cases hph

theorem inv_run {z : Zlib} {ver : Ver} {fs : List Frame4} {progs : Nat → List Call} (hp : Prepared fs progs) (sched : List Nat) {s : State}
    (h : Inv z ver fs progs s) : Inv z ver fs progs (run z ver sched s) := by
  induction sched generalizing s with
  | nil => exact h
  | cons i is ih => exact ih (inv_step hp i h)

/-! ## A frame that is not up to date -/

/-- What holds as regards the frame `k`, which is to be made up to date by whoever first asks it for something. -/
structure Hot (progs : Nat → List Call) (k : Nat) (s : State) : Prop where
  there : ∃ f, s.frames k = some f
  rest : ∀ i, (s.threads i).todo = (progs i).drop (s.threads i).done.length ∨ (s.threads i).todo = []
  did : ∀ i, (∃ c ∈ (progs i).take (s.threads i).done.length, c.frame = k) → ∃ w, ⟨i, k, .cache, w⟩ ∈ s.log
  doing : ∀ i c cs, (s.threads i).todo = c :: cs → c.frame = k → (s.threads i).phase = .fill ∨ (s.threads i).phase = .settle →
    ⟨i, k, .cache, true⟩ ∈ s.log
  wrote : (∃ x, ⟨x, k, .cache, true⟩ ∈ s.log) ∨
    ((∀ f, s.frames k = some f → f.dirty = true) ∧ (∀ i c cs, (s.threads i).todo = c :: cs → c.frame = k → (s.threads i).phase = .idle ∨ (s.threads i).phase = .clear) ∧
      ∀ i w, ⟨i, k, .cache, w⟩ ∉ s.log)

theorem hot_start {fs : List Frame4} {progs : Nat → List Call} {k : Nat} {f : Frame4} (hk : fs[k]? = some f) (hd : f.dirty = true) :
    Hot progs k (start fs progs) where
  there := ⟨f, hk⟩
  rest i := by simp [start]
  did i := by simp [start]
  doing i c cs _ _ hph := by simp [start] at hph
  wrote := by
    right
    refine ⟨?_, ?_, ?_⟩
    · intro g hg
      have : fs[k]? = some g := hg
      rw [hk] at this; cases this; exact hd
    · intro i c cs _ _; simp [start]
    · intro i w h; simp [start] at h

/-- The rest of a list, when it has a first element. -/
theorem take_of_drop {α : Type} {l : List α} {n : Nat} {c : α} {cs : List α} (h : c :: cs = l.drop n) :
    l.take (n + 1) = l.take n ++ [c] ∧ cs = l.drop (n + 1) := by
  have hlt : n < l.length := by
    rcases Nat.lt_or_ge n l.length with h1 | h1
    · exact h1
    · rw [List.drop_eq_nil_of_le h1] at h; cases h
  rw [List.drop_eq_getElem_cons hlt] at h
  injection h with h1 h2
  exact ⟨by rw [List.take_succ_eq_append_getElem hlt, h1], h2⟩

/-- Steps that only add to the log and change neither the calls nor the results of any thread. -/
theorem hot_step (z : Zlib) (ver : Ver) {progs : Nat → List Call} {k : Nat} {s : State} (i : Nat) (h : Hot progs k s) :
    Hot progs k (step z ver i s) := by
  unfold step
  split
  · exact h
  · rename_i c cs et
    have hr : c :: cs = (progs i).drop (s.threads i).done.length := by
      rcases h.rest i with h1 | h1
      · rw [← et]; exact h1
      · rw [et] at h1; cases h1
    obtain ⟨ht1, ht2⟩ := take_of_drop hr
    split
    · -- no such frame
      rename_i en
      have hck : c.frame ≠ k := by rintro rfl; obtain ⟨f, hf⟩ := h.there; rw [en] at hf; cases hf
      refine ⟨h.there, ?_, ?_, ?_, ?_⟩
      · intro j
        by_cases e : j = i
        · right; simp [upd, e]
        · simp only [upd, e, if_false]; exact h.rest j
      · intro j
        by_cases e : j = i
        · subst e
          simp only [upd_same, List.length_append, List.length_singleton, ht1]
          rintro ⟨d, hd, hdk⟩
          simp only [List.mem_append, List.mem_singleton] at hd
          rcases hd with hd | rfl
          · exact h.did j ⟨d, hd, hdk⟩
          · exact absurd hdk hck
        · simp only [upd, e, if_false]; exact h.did j
      · intro j d ds
        by_cases e : j = i
        · subst e; simp [upd]
        · simp only [upd, e, if_false]; exact h.doing j d ds
      · rcases h.wrote with hw | ⟨hw1, hw2, hw3⟩
        · exact .inl hw
        · refine .inr ⟨hw1, ?_, hw3⟩
          intro j d ds
          by_cases e : j = i
          · subst e; simp [upd]
          · simp only [upd, e, if_false]; exact hw2 j d ds
    · rename_i f ef
      split
      · -- idle
        rename_i ep
        refine ⟨h.there, ?_, ?_, ?_, ?_⟩
        · intro j
          by_cases e : j = i
          · subst e; simp only [upd_same]; exact h.rest j
          · simp only [upd, e, if_false]; exact h.rest j
        · intro j hj
          have : (upd s.threads i { s.threads i with phase := if f.dirty = true then .clear else .use } j).done = (s.threads j).done := by
            by_cases e : j = i
            · subst e; simp [upd]
            · simp [upd, e]
          rw [this] at hj
          obtain ⟨w, hw⟩ := h.did j hj
          exact ⟨w, by simp [hw]⟩
        · intro j d ds
          by_cases e : j = i
          · subst e
            simp only [upd_same]
            intro _ _ hph
            split at hph <;> simp at hph
          · simp only [upd, e, if_false]
            intro h1 h2 h3
            exact List.mem_append_left _ (h.doing j d ds h1 h2 h3)
        · rcases h.wrote with ⟨x, hw⟩ | ⟨hw1, hw2, hw3⟩
          · exact .inl ⟨x, by simp [hw]⟩
          · refine .inr ⟨hw1, ?_, ?_⟩
            · intro j d ds
              by_cases e : j = i
              · subst e
                simp only [upd_same]
                intro h1 h2
                rw [et] at h1; cases h1
                rw [h2] at ef
                rw [hw1 f ef]
                simp
              · simp only [upd, e, if_false]; exact hw2 j d ds
            · intro j w hm
              simp only [List.mem_append, List.mem_singleton] at hm
              rcases hm with hm | hm
              · exact hw3 j w hm
              · cases hm
      · -- clear
        rename_i ep
        refine ⟨?_, ?_, ?_, ?_, ?_⟩
        · by_cases e : k = c.frame
          · exact ⟨_, by rw [e]; exact upd_same _ _ _⟩
          · obtain ⟨g, hg⟩ := h.there
            exact ⟨g, by rw [← hg]; exact upd_other _ _ e⟩
        · intro j
          by_cases e : j = i
          · subst e; simp only [upd_same]; exact h.rest j
          · simp only [upd, e, if_false]; exact h.rest j
        · intro j hj
          have : (upd s.threads i { s.threads i with phase := .fill } j).done = (s.threads j).done := by
            by_cases e : j = i
            · subst e; simp [upd]
            · simp [upd, e]
          rw [this] at hj
          obtain ⟨w, hw⟩ := h.did j hj
          exact ⟨w, by simp [hw]⟩
        · intro j d ds
          by_cases e : j = i
          · subst e
            simp only [upd_same]
            intro h1 h2 _
            rw [et] at h1; cases h1
            rw [h2]; simp
          · simp only [upd, e, if_false]
            intro h1 h2 h3
            exact List.mem_append_left _ (h.doing j d ds h1 h2 h3)
        · by_cases e : c.frame = k
          · exact .inl ⟨i, by rw [e]; simp⟩
          · rcases h.wrote with ⟨x, hw⟩ | ⟨hw1, hw2, hw3⟩
            · exact .inl ⟨x, by simp [hw]⟩
            · refine .inr ⟨?_, ?_, ?_⟩
              · intro g hg
                simp only [upd_other _ _ (fun h => e h.symm)] at hg
                exact hw1 g hg
              · intro j d ds
                by_cases e' : j = i
                · subst e'
                  simp only [upd_same]
                  intro h1 h2
                  rw [et] at h1; cases h1
                  exact absurd h2 e
                · simp only [upd, e', if_false]; exact hw2 j d ds
              · intro j w hm
                simp only [List.mem_append, List.mem_singleton] at hm
                rcases hm with hm | hm
                · exact hw3 j w hm
                · cases hm; exact e rfl
      · -- fill
        rename_i ep
        have stop : ∀ r : Res Out, Hot progs k { s with threads := upd s.threads i ⟨[], .idle, (s.threads i).done ++ [r]⟩ } := by
          intro r
          refine ⟨h.there, ?_, ?_, ?_, ?_⟩
          · intro j
            by_cases e : j = i
            · right; simp [upd, e]
            · simp only [upd, e, if_false]; exact h.rest j
          · intro j
            by_cases e : j = i
            · subst e
              simp only [upd_same, List.length_append, List.length_singleton, ht1]
              rintro ⟨d, hd, hdk⟩
              simp only [List.mem_append, List.mem_singleton] at hd
              rcases hd with hd | rfl
              · exact h.did j ⟨d, hd, hdk⟩
              · exact ⟨true, h.doing j d cs et hdk (.inl ep)⟩
            · simp only [upd, e, if_false]; exact h.did j
          · intro j d ds
            by_cases e : j = i
            · subst e; simp [upd]
            · simp only [upd, e, if_false]; exact h.doing j d ds
          · rcases h.wrote with hw | ⟨hw1, hw2, hw3⟩
            · exact .inl hw
            · refine .inr ⟨hw1, ?_, hw3⟩
              intro j d ds
              by_cases e : j = i
              · subst e; simp [upd]
              · simp only [upd, e, if_false]; exact hw2 j d ds
        split
        · rename_i g eg
          refine ⟨?_, ?_, ?_, ?_, ?_⟩
          · by_cases e : k = c.frame
            · exact ⟨_, by rw [e]; exact upd_same _ _ _⟩
            · obtain ⟨g, hg⟩ := h.there
              exact ⟨g, by rw [← hg]; exact upd_other _ _ e⟩
          · intro j
            by_cases e : j = i
            · subst e; simp only [upd_same]; exact h.rest j
            · simp only [upd, e, if_false]; exact h.rest j
          · intro j hj
            have : (upd s.threads i { s.threads i with phase := .settle } j).done = (s.threads j).done := by
              by_cases e : j = i
              · subst e; simp [upd]
              · simp [upd, e]
            rw [this] at hj
            obtain ⟨w, hw⟩ := h.did j hj
            exact ⟨w, by simp [hw]⟩
          · intro j d ds
            by_cases e : j = i
            · subst e
              simp only [upd_same]
              intro h1 h2 _
              rw [et] at h1; cases h1
              rw [h2]; simp
            · simp only [upd, e, if_false]
              intro h1 h2 h3
              exact List.mem_append_left _ (h.doing j d ds h1 h2 h3)
          · by_cases e : c.frame = k
            · exact .inl ⟨i, by rw [e]; simp⟩
            · rcases h.wrote with ⟨x, hw⟩ | ⟨hw1, hw2, hw3⟩
              · exact .inl ⟨x, by simp [hw]⟩
              · refine .inr ⟨?_, ?_, ?_⟩
                · intro g hg
                  simp only [upd_other _ _ (fun h => e h.symm)] at hg
                  exact hw1 g hg
                · intro j d ds
                  by_cases e' : j = i
                  · subst e'
                    simp only [upd_same]
                    intro h1 h2
                    rw [et] at h1; cases h1
                    exact absurd h2 e
                  · simp only [upd, e', if_false]; exact hw2 j d ds
                · intro j w hm
                  simp only [List.mem_append, List.mem_singleton] at hm
                  rcases hm with hm | hm
                  · exact hw3 j w hm
                  · cases hm; exact e rfl
        · exact stop _
        · exact stop _
      · -- settle
        rename_i ep
        refine ⟨?_, ?_, ?_, ?_, ?_⟩
        · by_cases e : k = c.frame
          · exact ⟨_, by rw [e]; exact upd_same _ _ _⟩
          · obtain ⟨g, hg⟩ := h.there
            exact ⟨g, by rw [← hg]; exact upd_other _ _ e⟩
        · intro j
          by_cases e : j = i
          · subst e; simp only [upd_same]; exact h.rest j
          · simp only [upd, e, if_false]; exact h.rest j
        · intro j hj
          have : (upd s.threads i { s.threads i with phase := .use } j).done = (s.threads j).done := by
            by_cases e : j = i
            · subst e; simp [upd]
            · simp [upd, e]
          rw [this] at hj
          obtain ⟨w, hw⟩ := h.did j hj
          exact ⟨w, by simp [hw]⟩
        · intro j d ds
          by_cases e : j = i
          · subst e
            simp [upd_same]
          · simp only [upd, e, if_false]
            intro h1 h2 h3
            exact List.mem_append_left _ (h.doing j d ds h1 h2 h3)
        · by_cases e : c.frame = k
          · exact .inl ⟨i, List.mem_append_left _ (h.doing i c cs et e (.inr ep))⟩
          · rcases h.wrote with ⟨x, hw⟩ | ⟨hw1, hw2, hw3⟩
            · exact .inl ⟨x, by simp [hw]⟩
            · refine .inr ⟨?_, ?_, ?_⟩
              · intro g hg
                simp only [upd_other _ _ (fun h => e h.symm)] at hg
                exact hw1 g hg
              · intro j d ds
                by_cases e' : j = i
                · subst e'
                  simp only [upd_same]
                  intro h1 h2
                  rw [et] at h1; cases h1
                  exact absurd h2 e
                · simp only [upd, e', if_false]; exact hw2 j d ds
              · intro j w hm
                simp only [List.mem_append, List.mem_singleton] at hm
                rcases hm with hm | hm
                · exact hw3 j w hm
                · cases hm
      · -- use
        rename_i ep
        refine ⟨h.there, ?_, ?_, ?_, ?_⟩
        · intro j
          by_cases e : j = i
          · subst e; left; simp only [upd_same, List.length_append, List.length_singleton]; exact ht2
          · simp only [upd, e, if_false]; exact h.rest j
        · intro j
          by_cases e : j = i
          · subst e
            simp only [upd_same, List.length_append, List.length_singleton, ht1]
            rintro ⟨d, hd, hdk⟩
            simp only [List.mem_append, List.mem_singleton] at hd
            rcases hd with hd | rfl
            · obtain ⟨w, hw⟩ := h.did j ⟨d, hd, hdk⟩
              exact ⟨w, by simp [hw]⟩
            · exact ⟨false, by rw [hdk]; simp⟩
          · simp only [upd, e, if_false]
            intro hj
            obtain ⟨w, hw⟩ := h.did j hj
            exact ⟨w, by simp [hw]⟩
        · intro j d ds
          by_cases e : j = i
          · subst e
            simp [upd_same]
          · simp only [upd, e, if_false]
            intro h1 h2 h3
            exact List.mem_append_left _ (h.doing j d ds h1 h2 h3)
        · rcases h.wrote with ⟨x, hw⟩ | ⟨hw1, hw2, hw3⟩
          · exact .inl ⟨x, by simp [hw]⟩
          · refine .inr ⟨hw1, ?_, ?_⟩
            · intro j d ds
              by_cases e : j = i
              · subst e
                simp [upd_same]
              · simp only [upd, e, if_false]; exact hw2 j d ds
            · intro j w hm
              simp only [List.mem_append, List.mem_singleton] at hm
              rcases hm with hm | hm
              · exact hw3 j w hm
              · cases hm
                rcases hw2 i c cs et rfl with hx | hx <;> rw [ep] at hx <;> cases hx

theorem hot_run (z : Zlib) (ver : Ver) {progs : Nat → List Call} {k : Nat} (sched : List Nat) {s : State} (h : Hot progs k s) :
    Hot progs k (run z ver sched s) := by
  induction sched generalizing s with
  | nil => exact h
  | cons i is ih => exact ih (hot_step z ver i h)

/-! ## Every thread gets to the end -/

/-- How many steps a thread may have to make yet. -/
def left (t : Thread) : Nat :=
  match t.todo, t.phase with
  | [], _ => 0
  | _ :: cs, p => 5 * cs.length + match p with | .idle => 5 | .clear => 4 | .fill => 3 | .settle => 2 | .use => 1

theorem left_step (z : Zlib) (ver : Ver) (i : Nat) (s : State) : left ((step z ver i s).threads i) ≤ left (s.threads i) - 1 := by
  unfold step
  split
  · rename_i e; simp [left, e]
  · rename_i c cs et
    split
    · simp [left, upd]
    · split
      · rename_i _ f _ _ ep
        simp only [upd_same, left, et, ep]
        cases f.dirty <;> simp
      · rename_i f ef ep
        simp [upd_same, left, et, ep]
      · rename_i f ef ep
        split
        · simp [upd_same, left, et, ep]
        · simp [upd_same, left]
        · simp [upd_same, left]
      · rename_i f ef ep
        simp [upd_same, left, et, ep]
      · rename_i f ef ep
        simp only [upd_same, left, et, ep]
        split
        · omega
        · simp only [List.length_cons]; omega

theorem other_step (z : Zlib) (ver : Ver) {i j : Nat} (s : State) (h : j ≠ i) : (step z ver i s).threads j = s.threads j := by
  unfold step
  repeat' split
  all_goals first | rfl | exact upd_other _ _ h

theorem left_run (z : Zlib) (ver : Ver) (i : Nat) (sched : List Nat) (s : State) :
    left ((run z ver sched s).threads i) ≤ left (s.threads i) - sched.count i := by
  induction sched generalizing s with
  | nil => simp [run]
  | cons j js ih =>
    have h := ih (step z ver j s)
    have e : run z ver (j :: js) s = run z ver js (step z ver j s) := rfl
    rw [e]
    by_cases hj : j = i
    · subst hj
      have := left_step z ver j s
      rw [List.count_cons_self]
      omega
    · rw [other_step z ver s (fun h => hj h.symm)] at h
      rw [List.count_cons_of_ne (by simpa using hj)]
      exact h

end Scribbu.Shared
