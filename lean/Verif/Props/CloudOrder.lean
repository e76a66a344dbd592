import Verif.Props.TagCloud

/-! Property C200: the order in which tags are added to a tag cloud makes no difference. -/

namespace Scribbu.Props
open Scribbu Scribbu.Spec Scribbu.TagCloud

/-- The calls that add to a cloud. -/
def Adds (op : CloudOp) : Prop := ∀ text, op ≠ .update text

/-- The cloud after some calls, if whatever they throw is caught. -/
def afterOps (ops : List CloudOp) (t : TagCloud) : TagCloud := ops.foldl (fun t op => (op.run t).2) t

theorem run_outcome (op : CloudOp) (t u : TagCloud) : (op.run t).1 = (op.run u).1 := by
  cases op with
  | addKey k => rfl
  | addValue k v => rfl
  | merge text =>
    simp only [CloudOp.run, TagCloud.merge]
    split <;> rfl
  | update text => rfl

/-- What a call adds, if it is not refused. -/
def CloudOp.key : CloudOp → Bytes → Prop
  | .addKey k, x => x = k
  | .addValue k _, x => x = k
  | .merge text, x => ((CloudOp.merge text).run ⟨[], []⟩).1 = .ok () ∧ MentionsKey text x
  | .update _, _ => False

def CloudOp.val : CloudOp → Bytes → Bytes → Prop
  | .addKey _, _, _ => False
  | .addValue k v, x, y => x = k ∧ y = v
  | .merge text, x, y => ((CloudOp.merge text).run ⟨[], []⟩).1 = .ok () ∧ MentionsVal text x y
  | .update _, _, _ => False

theorem run_adds {op : CloudOp} (ho : Adds op) {t : TagCloud} (h : MapOk t.tags) {a : AbsCloud} (hr : Represents t.tags a) :
    MapOk (op.run t).2.tags ∧ (op.run t).2.own = t.own ∧
      Represents (op.run t).2.tags ⟨fun x => op.key x ∨ a.key x, fun x y => op.val x y ∨ a.val x y⟩ := by
  by_cases hok : (op.run t).1 = .ok ()
  · obtain ⟨h1, h2, h3⟩ := C19_step op t a h hr hok
    refine ⟨h1, h3, ?_⟩
    rw [run_outcome op t ⟨[], []⟩] at hok
    cases op with
    | addKey k => simpa [CloudOp.key, CloudOp.val, CloudOp.meaning, AbsCloud.addKey] using h2
    | addValue k v => exact h2
    | merge text =>
      have : (⟨fun x => CloudOp.key (.merge text) x ∨ a.key x, fun x y => CloudOp.val (.merge text) x y ∨ a.val x y⟩ : AbsCloud) =
          (CloudOp.merge text).meaning a := by
        apply abs_ext
        · intro k; simp only [CloudOp.key, CloudOp.meaning, AbsCloud.merge, hok, true_and]
        · intro k v; simp only [CloudOp.val, CloudOp.meaning, AbsCloud.merge, hok, true_and]
      rw [this]
      exact h2
    | update text => exact absurd rfl (ho text)
  · have hs : (op.run t).2 = t := by
      cases op with
      | addKey k => exact absurd rfl hok
      | addValue k v => exact absurd rfl hok
      | merge text => exact C47_merge text t hok
      | update text => exact absurd rfl (ho text)
    rw [hs]
    rw [run_outcome op t ⟨[], []⟩] at hok
    refine ⟨h, rfl, ?_⟩
    cases op with
    | addKey k => exact absurd rfl hok
    | addValue k v => exact absurd rfl hok
    | merge text => simpa only [CloudOp.key, CloudOp.val, hok, false_and, false_or] using hr
    | update text => exact absurd rfl (ho text)

theorem after_adds (ops : List CloudOp) : ∀ (t : TagCloud) (a : AbsCloud), (∀ op ∈ ops, Adds op) → MapOk t.tags → Represents t.tags a →
    MapOk (afterOps ops t).tags ∧ (afterOps ops t).own = t.own ∧
      Represents (afterOps ops t).tags ⟨fun x => (∃ op ∈ ops, op.key x) ∨ a.key x, fun x y => (∃ op ∈ ops, op.val x y) ∨ a.val x y⟩ := by
  induction ops with
  | nil =>
    intro t a _ h hr
    refine ⟨h, rfl, ?_⟩
    simp only [List.not_mem_nil, false_and, exists_false, false_or]
    exact hr
  | cons op ops ih =>
    intro t a ho h hr
    obtain ⟨h1, h2, h3⟩ := run_adds (ho op (by simp)) h hr
    obtain ⟨k1, k2, k3⟩ := ih _ _ (fun o hm => ho o (by simp [hm])) h1 h3
    refine ⟨k1, k2.trans h2, ?_⟩
    have e : (⟨fun x => (∃ o ∈ op :: ops, o.key x) ∨ a.key x, fun x y => (∃ o ∈ op :: ops, o.val x y) ∨ a.val x y⟩ : AbsCloud) =
        ⟨fun x => (∃ o ∈ ops, o.key x) ∨ op.key x ∨ a.key x, fun x y => (∃ o ∈ ops, o.val x y) ∨ op.val x y ∨ a.val x y⟩ := by
      apply abs_ext
      · intro k
        simp only [List.mem_cons, exists_eq_or_imp]
        rw [← or_assoc, or_comm (a := op.key k)]
      · intro k v
        simp only [List.mem_cons, exists_eq_or_imp]
        rw [← or_assoc, or_comm (a := op.val k v)]
    rw [e]
    exact k3

/-- **C200** Clouds that cannot be told apart by asking for keys and values are written as the same bytes and shown as the same text. -/
theorem C200_canonical (t u : TagCloud) (ht : MapOk t.tags) (hu : MapOk u.tags) (ho : t.own = u.own) (hk : ∀ k, t.hasKey k = u.hasKey k)
    (hv : ∀ k v, t.hasValue k v = u.hasValue k v) : t.write = u.write ∧ t.urlencoded = u.urlencoded := by
  have r : ∀ m : TagMap, Represents m ⟨fun k => ∃ s, (k, s) ∈ m, fun k v => ∃ s, (k, s) ∈ m ∧ v ∈ s⟩ :=
    fun m => ⟨fun _ => Iff.rfl, fun _ _ => Iff.rfl⟩
  have : t = u := by
    have e : t.tags = u.tags := by
      apply mapOk_ext ht hu
      · intro k
        have h1 := (C19_observers t _ ht (r _) k []).1
        have h2 := (C19_observers u _ hu (r _) k []).1
        exact h1.symm.trans ((by rw [hk]) : t.hasKey k = true ↔ u.hasKey k = true) |>.trans h2
      · intro k v
        have h1 := (C19_observers t _ ht (r _) k v).2
        have h2 := (C19_observers u _ hu (r _) k v).2
        exact h1.symm.trans ((by rw [hv]) : t.hasValue k v = true ↔ u.hasValue k v = true) |>.trans h2
    cases t; cases u; simp_all
  subst this
  exact ⟨rfl, rfl⟩

/-- **C200** Calls that add keys, values or texts, some of which may be refused: what becomes of a cloud depends on what calls there are only, not on
their order nor on how often each is made. -/
theorem C200_order (ops ops' : List CloudOp) (ho : ∀ op ∈ ops, Adds op) (hm : ∀ op, op ∈ ops ↔ op ∈ ops') (t : TagCloud) (h : MapOk t.tags) :
    afterOps ops t = afterOps ops' t := by
  have r : Represents t.tags ⟨fun k => ∃ s, (k, s) ∈ t.tags, fun k v => ∃ s, (k, s) ∈ t.tags ∧ v ∈ s⟩ := ⟨fun _ => Iff.rfl, fun _ _ => Iff.rfl⟩
  obtain ⟨a1, a2, a3⟩ := after_adds ops t _ ho h r
  obtain ⟨b1, b2, b3⟩ := after_adds ops' t _ (fun op hp => ho op ((hm op).2 hp)) h r
  simp only [← hm] at b3
  have e : (afterOps ops t).tags = (afterOps ops' t).tags :=
    mapOk_ext a1 b1 (fun k => (a3.1 k).trans (b3.1 k).symm) (fun k v => (a3.2 k v).trans (b3.2 k v).symm)
  have o := a2.trans b2.symm
  cases hx : afterOps ops t
  cases hy : afterOps ops' t
  rw [hx, hy] at e o
  simp only at e o
  rw [e, o]

/-- The calls of `hist1`, in another order and some of them twice, on a cloud that is not empty. -/
example : afterOps hist1 tc1 = afterOps (hist1.reverse ++ hist1.take 2) tc1 ∧ afterOps hist1 tc1 ≠ tc1 := by
  refine ⟨C200_order _ _ ?_ ?_ tc1 tc1_ok, by decide⟩
  · intro op hop text he
    subst he
    simp [hist1] at hop
  · intro op
    simp only [List.mem_append, List.mem_reverse]
    exact ⟨.inl, fun h => h.elim id List.mem_of_mem_take⟩

/-- Updating is different: the last one counts. -/
example : afterOps [.update [0x61], .update [0x62]] tc1 ≠ afterOps [.update [0x62], .update [0x61]] tc1 := by decide

end Scribbu.Props
