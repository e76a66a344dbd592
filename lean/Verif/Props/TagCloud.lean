import Verif.Proofs.TagCloudText
import Verif.Proofs.TagCloudBin

/-! Properties C18, C19, C47 and C48: tag clouds.

`MapOk` says that the entries are the iteration sequence of some
`std::map<std::string, std::set<std::string>>` (strictly increasing keys, each with
strictly increasing values); it is what "every tag cloud" ranges over, and
`C19_history` shows that it is preserved. -/

namespace Scribbu.Props
open Scribbu Scribbu.Spec Scribbu.TagCloud

/-- `{"a,b": {"", "x&y", "z=%"}, "k": {}}`: keys and values full of separators. -/
def tc1 : TagCloud :=
  ⟨[0x6f, 0x77, 0x6e],
   [([0x61, 0x2c, 0x62], [[], [0x78, 0x26, 0x79], [0x7a, 0x3d, 0x25]]), ([0x6b], [])]⟩

theorem tc1_ok : MapOk tc1.tags := by
  unfold MapOk SetOk tc1
  refine ⟨by decide, by decide⟩

/-! ### C18: text form -/

/-- C18 in full, text form: the urlencoded text of every cloud parses to the same map. -/
def C18_text_claim : Prop :=
  ∀ t : TagCloud, MapOk t.tags → ofText t.own t.urlencoded = .ok t

/-- **Finding**: the text of a cloud without keys is empty, and the empty text parses to
the cloud whose only key is the empty string. -/
theorem C18_text_refuted : ¬ C18_text_claim := by
  intro h
  have := h ⟨[], []⟩ MapOk.nil
  revert this
  decide

/-- **C18** The text of every cloud with at least one key, whatever its keys and values,
parses to that very cloud. (Missing: the empty cloud, refuted above.) -/
theorem C18_text_partial (t : TagCloud) (h : MapOk t.tags) (hne : t.tags ≠ []) :
    ofText t.own t.urlencoded = .ok t := urlencoded_parse t.own t.tags h hne

example : tc1.tags ≠ [] ∧ ofText tc1.own tc1.urlencoded = .ok tc1 := by decide

/-- **C18** The text determines the map. -/
theorem C18_text_injective_partial (t u : TagCloud) (ht : MapOk t.tags) (hu : MapOk u.tags)
    (h1 : t.tags ≠ []) (h2 : u.tags ≠ []) (h : t.urlencoded = u.urlencoded) : t.tags = u.tags := by
  have a := urlencoded_parse [] t.tags ht h1
  have b := urlencoded_parse [] u.tags hu h2
  rw [show (⟨[], t.tags⟩ : TagCloud).urlencoded = t.urlencoded from rfl, h] at a
  rw [show (⟨[], u.tags⟩ : TagCloud).urlencoded = u.urlencoded from rfl, a] at b
  simpa using b

/-! ### C18: binary form -/

/-- C18 in full, binary form. -/
def C18_binary_claim : Prop :=
  ∀ t : TagCloud, MapOk t.tags → parse t.write = some (.ok t)

/-- **Finding**: strings are written NUL-terminated, but `%00` puts a NUL into a key. -/
theorem C18_binary_refuted : ¬ C18_binary_claim := by
  intro h
  have e : ofText [] [0x61, 0x25, 0x30, 0x30, 0x62] = .ok ⟨[], [([0x61, 0, 0x62], [])]⟩ := by decide
  have := h ⟨[], [([0x61, 0, 0x62], [])]⟩ (by unfold MapOk SetOk; exact ⟨by decide, by decide⟩)
  revert this
  decide +kernel

/-- **C18** Every cloud whose strings have no NUL, and whose values take less than
2³² bytes per key, is read back from the bytes written for it. (Missing: NULs, refuted
above; more than 4 GB of values for one key.) -/
theorem C18_binary_partial (t : TagCloud) (h : MapOk t.tags) (ho : (0 : Byte) ∉ t.own)
    (h0 : ∀ e ∈ t.tags, (0 : Byte) ∉ e.1 ∧ (∀ v ∈ e.2, (0 : Byte) ∉ v) ∧
      (e.2.map fun v => v.length + 1).sum < 2 ^ 32) : parse t.write = some (.ok t) :=
  parse_write t h ho h0

example : (0 : Byte) ∉ tc1.own ∧ ∀ e ∈ tc1.tags, (0 : Byte) ∉ e.1 ∧ (∀ v ∈ e.2, (0 : Byte) ∉ v) ∧
      (e.2.map fun v => v.length + 1).sum < 2 ^ 32 := by decide

/-- **C18** `size()` is the number of bytes written, for every cloud. -/
theorem C18_size (t : TagCloud) : t.write.length = t.size := write_length t

example : tc1.size = 28 ∧ tc1.write.length = 28 := by decide

/-! ### C19 -/

/-- The calls that change a cloud. -/
inductive CloudOp
  | addKey (k : Bytes)
  | addValue (k v : Bytes)
  | merge (text : Bytes)
  | update (text : Bytes)

/-- The call itself. -/
def CloudOp.run : CloudOp → TagCloud → Res Unit × TagCloud
  | .addKey k, t => (.ok (), (t.addKey k).2)
  | .addValue k v, t => (.ok (), (t.addValue k v).2)
  | .merge text, t => t.merge text
  | .update text, t => t.update text

/-- What it should do to the keys and values. -/
def CloudOp.meaning : CloudOp → AbsCloud → AbsCloud
  | .addKey k => AbsCloud.addKey k
  | .addValue k v => AbsCloud.addValue k v
  | .merge text => AbsCloud.merge text
  | .update text => AbsCloud.update text

theorem abs_ext {a b : AbsCloud} (h1 : ∀ k, a.key k ↔ b.key k) (h2 : ∀ k v, a.val k v ↔ b.val k v) :
    a = b := by
  obtain ⟨a1, a2⟩ := a; obtain ⟨b1, b2⟩ := b
  congr 1
  · funext k; exact propext (h1 k)
  · funext k v; exact propext (h2 k v)

theorem val_key {m : TagMap} {a : AbsCloud} (h : Represents m a) {k v : Bytes} (hv : a.val k v) : a.key k := by
  obtain ⟨s, h1, -⟩ := (h.2 k v).2 hv
  exact (h.1 k).1 ⟨s, h1⟩

/-- **C19** A cloud answers `has_key` and `has_value` according to what it represents. -/
theorem C19_observers (t : TagCloud) (a : AbsCloud) (h : MapOk t.tags) (hr : Represents t.tags a)
    (k v : Bytes) : (t.hasKey k = true ↔ a.key k) ∧ (t.hasValue k v = true ↔ a.val k v) := by
  refine ⟨?_, ?_⟩
  · rw [hasKey, mapFind_isSome h]; exact hr.1 k
  · rw [← hr.2 k v, hasValue]
    cases hf : mapFind k t.tags with
    | none =>
      simp only [Bool.false_eq_true, false_iff]
      rintro ⟨s, h1, -⟩
      rw [(mapFind_mem h).2 h1] at hf; cases hf
    | some s =>
      simp only [List.contains_iff_mem]
      constructor
      · exact fun hv => ⟨s, (mapFind_mem h).1 hf, hv⟩
      · rintro ⟨s', h1, h2⟩
        rw [(mapFind_mem h).2 h1] at hf; cases hf; exact h2

/-- **C19** `add_key` and `add_value` report whether they changed anything. -/
theorem C19_add_results (t : TagCloud) (k v : Bytes) :
    ((t.addKey k).1 = !t.hasKey k) ∧ ((t.addValue k v).1 = !t.hasValue k v) ∧
    ((t.addKey k).1 = false → (t.addKey k).2 = t) ∧
    ((t.addValue k v).1 = false → (t.addValue k v).2 = t) := by
  unfold addKey addValue hasKey hasValue
  refine ⟨?_, ?_, ?_, ?_⟩
  · split <;> simp_all
  · split
    · rfl
    · split <;> simp_all
  · split <;> simp
  · split
    · simp
    · split <;> simp

/-- **C19** Every call that succeeds has the meaning it should have: `add_key` and `add_value`
add the key, and the value, and nothing else; `merge(text)` makes the keys the union of
the old ones and those mentioned and each key's values the union of old and new;
`update(text)` leaves exactly what the text mentions. The owner never changes. -/
theorem C19_step (op : CloudOp) (t : TagCloud) (a : AbsCloud) (h : MapOk t.tags)
    (hr : Represents t.tags a) (hok : (op.run t).1 = .ok ()) :
    MapOk (op.run t).2.tags ∧ Represents (op.run t).2.tags (op.meaning a) ∧
      (op.run t).2.own = t.own := by
  cases op with
  | addKey k =>
    simp only [CloudOp.run, CloudOp.meaning, addKey, AbsCloud.addKey]
    by_cases hk : t.hasKey k = true
    · rw [if_pos hk]
      have hk' := (mapFind_isSome h).1 hk
      refine ⟨h, ⟨fun x => ?_, hr.2⟩, rfl⟩
      rw [hr.1]
      simp only
      constructor
      · exact .inr
      · rintro (rfl | hx)
        · exact (hr.1 _).1 hk'
        · exact hx
    · rw [if_neg hk]
      have hn : mapFind k t.tags = none := by
        unfold hasKey at hk
        cases hf : mapFind k t.tags with
        | none => rfl
        | some s => rw [hf] at hk; simp at hk
      refine ⟨mapOk_upd h (fun _ => .nil) (fun _ _ => .nil), ⟨fun x => ?_, fun x y => ?_⟩, rfl⟩
      · rw [keys_mapUpd, hr.1]
      · have := valIn_upd (k := k) (f := fun _ => []) h (x := x) (v := y)
        simp only [ValIn] at this
        rw [this, hr.2]
        simp only [List.not_mem_nil, and_false, or_false]
        constructor
        · exact And.right
        · intro hv
          refine ⟨?_, hv⟩
          rintro rfl
          obtain ⟨s, h1, -⟩ := (hr.2 x y).2 hv
          rw [(mapFind_mem h).2 h1] at hn; cases hn
  | addValue k v =>
    have key : ∀ M : TagMap, MapOk M → Represents M a ∨ Represents M (AbsCloud.addKey k a) →
        MapOk (mapUpd k (setInsert v) M) ∧ Represents (mapUpd k (setInsert v) M) (AbsCloud.addValue k v a) := by
      intro M hM hrM
      refine ⟨mapOk_upd hM (fun _ => setOk_insert .nil) (fun s hs => setOk_insert (hM.2 _ hs)), ?_, ?_⟩
      · intro x
        rw [keys_mapUpd]
        simp only [AbsCloud.addValue]
        rcases hrM with hrM | hrM
        · rw [hrM.1]
        · rw [hrM.1]; simp only [AbsCloud.addKey]
          constructor
          · rintro (h | h | h)
            · exact .inl h
            · exact .inl h
            · exact .inr h
          · rintro (h | h)
            · exact .inl h
            · exact .inr (.inr h)
      · intro x y
        have h1 := valIn_upd (k := k) (f := setInsert v) hM (x := x) (v := y)
        have h2 := valIn_find (k := k) (v := y) hM
        have h3 : ∀ x y, ValIn M x y ↔ a.val x y := by
          intro x y
          rcases hrM with hrM | hrM
          · exact hrM.2 x y
          · exact hrM.2 x y
        simp only [mem_setInsert] at h1
        rw [h2, h3, h3] at h1
        show ValIn _ _ _ ↔ _
        rw [h1]
        simp only [AbsCloud.addValue]
        by_cases hx : x = k
        · subst hx; simp
        · simp [hx]
    simp only [CloudOp.run, CloudOp.meaning, addValue]
    split
    · rename_i hn
      have hst : MapOk (mapUpd k (fun _ => []) t.tags) ∧
          Represents (mapUpd k (fun _ => []) t.tags) (AbsCloud.addKey k a) := by
        refine ⟨mapOk_upd h (fun _ => .nil) (fun _ _ => .nil), fun x => ?_, fun x y => ?_⟩
        · rw [keys_mapUpd, hr.1]; rfl
        · have := valIn_upd (k := k) (f := fun _ => []) h (x := x) (v := y)
          simp only [ValIn] at this
          rw [this, hr.2]
          simp only [List.not_mem_nil, and_false, or_false, AbsCloud.addKey]
          constructor
          · exact And.right
          · intro hv
            refine ⟨?_, hv⟩
            rintro rfl
            obtain ⟨s, h1, -⟩ := (hr.2 x y).2 hv
            rw [(mapFind_mem h).2 h1] at hn; cases hn
      obtain ⟨h1, h2⟩ := key _ hst.1 (.inr hst.2)
      exact ⟨h1, h2, rfl⟩
    · rename_i s hs
      split
      · rename_i hc
        have hv : a.val k v := (hr.2 k v).1 ⟨s, (mapFind_mem h).1 hs, by simpa using hc⟩
        refine ⟨h, ⟨fun x => ?_, fun x y => ?_⟩, rfl⟩
        · rw [hr.1]
          simp only [AbsCloud.addValue]
          constructor
          · exact .inr
          · rintro (rfl | hx)
            · exact val_key hr hv
            · exact hx
        · rw [hr.2]
          simp only [AbsCloud.addValue]
          constructor
          · exact .inr
          · rintro (⟨rfl, rfl⟩ | hx)
            · exact hv
            · exact hx
      · obtain ⟨h1, h2⟩ := key _ h (.inl hr)
        exact ⟨h1, h2, rfl⟩
  | merge text =>
    simp only [CloudOp.run, CloudOp.meaning, merge] at hok ⊢
    rcases parse_spec text with ⟨M, e, hM, hk, hv⟩ | ⟨M, e⟩
    · rw [e] at hok ⊢
      obtain ⟨a1, a2, a3⟩ := foldl_merge_spec M t.tags h hM.2
      refine ⟨a1, ⟨fun x => ?_, fun x y => ?_⟩, rfl⟩
      · show KeyIn _ _ ↔ _
        rw [a2, hk, show KeyIn t.tags x ↔ a.key x from hr.1 x]; rfl
      · show ValIn _ _ _ ↔ _
        rw [a3, hv, show ValIn t.tags x y ↔ a.val x y from hr.2 x y]; rfl
    · rw [e] at hok; cases hok
  | update text =>
    simp only [CloudOp.run, CloudOp.meaning, update] at hok ⊢
    rcases parse_spec text with ⟨M, e, hM, hk, hv⟩ | ⟨M, e⟩
    · rw [e] at hok ⊢
      refine ⟨hM, ⟨hk, hv⟩, ?_⟩; trivial
    · rw [e] at hok; cases hok

/-- A call in a program that catches whatever it throws: a refused call means nothing. -/
def CloudOp.meaningIn (op : CloudOp) (t : TagCloud) (a : AbsCloud) : AbsCloud :=
  match (op.run t).1 with
  | .ok () => op.meaning a
  | _ => a

/-- A history of calls with what it should mean. -/
def history : List CloudOp → TagCloud × AbsCloud → TagCloud × AbsCloud
  | [], s => s
  | op :: ops, (t, a) => history ops ((op.run t).2, op.meaningIn t a)

/-- No `update` of the history is refused. -/
def updatesOk : List CloudOp → TagCloud → Prop
  | [], _ => True
  | op :: ops, t => (∀ text, op = .update text → (op.run t).1 = .ok ()) ∧ updatesOk ops (op.run t).2

/-- C19 over histories, in full. -/
def C19_history_claim : Prop :=
  ∀ (ops : List CloudOp) (t : TagCloud) (a : AbsCloud), MapOk t.tags → Represents t.tags a →
    Represents (history ops (t, a)).1.tags (history ops (t, a)).2

/-- **C47** A `merge` that is refused leaves the cloud as it was. -/
theorem C47_merge (text : Bytes) (t : TagCloud) (h : (t.merge text).1 ≠ .ok ()) :
    (t.merge text).2 = t := by
  unfold merge at *
  split at h
  · exact absurd rfl h
  · rfl

/-- **C19** Over every history of calls in which no `update` is refused (refused `merge`s are
caught and ignored), the cloud stays a map and represents what the history means.
(Missing: refused updates, see `C47_update_refuted`.) -/
theorem C19_history_partial (ops : List CloudOp) : ∀ (t : TagCloud) (a : AbsCloud), MapOk t.tags →
    Represents t.tags a → updatesOk ops t →
    MapOk (history ops (t, a)).1.tags ∧ Represents (history ops (t, a)).1.tags (history ops (t, a)).2 := by
  induction ops with
  | nil => intro t a h hr _; exact ⟨h, hr⟩
  | cons op ops ih =>
    intro t a h hr hu
    obtain ⟨hu1, hu2⟩ := hu
    rw [history]
    cases hres : (op.run t).1 with
    | ok u =>
      obtain ⟨a1, a2, -⟩ := C19_step op t a h hr hres
      exact ih _ _ a1 (by rw [CloudOp.meaningIn, hres]; exact a2) hu2
    | throw e =>
      have hsame : (op.run t).2 = t := by
        cases op with
        | addKey k => cases hres
        | addValue k v => cases hres
        | merge text => exact C47_merge text t (by rw [show (t.merge text).1 = _ from hres]; simp)
        | update text => rw [hu1 text rfl] at hres; cases hres
      rw [hsame] at hu2 ⊢
      exact ih _ _ h (by rw [CloudOp.meaningIn, hres]; exact hr) hu2
    | ub u =>
      have hsame : (op.run t).2 = t := by
        cases op with
        | addKey k => cases hres
        | addValue k v => cases hres
        | merge text => exact C47_merge text t (by rw [show (t.merge text).1 = _ from hres]; simp)
        | update text => rw [hu1 text rfl] at hres; cases hres
      rw [hsame] at hu2 ⊢
      exact ih _ _ h (by rw [CloudOp.meaningIn, hres]; exact hr) hu2

/-- `add_key("x"); add_value("k","v"); merge("k=w,v&y"); merge("%zz")`: a history with a
refused merge. -/
def hist1 : List CloudOp :=
  [.addKey [0x78], .addValue [0x6b] [0x76], .merge [0x6b, 0x3d, 0x77, 0x2c, 0x76, 0x26, 0x79],
   .merge [0x25, 0x7a, 0x7a]]

example : updatesOk hist1 ⟨[], []⟩ ∧ (history hist1 (⟨[], []⟩, ⟨fun _ => False, fun _ _ => False⟩)).1 =
    ⟨[], [([0x6b], [[0x76], [0x77]]), ([0x78], []), ([0x79], [])]⟩ := by
  refine ⟨?_, by decide⟩
  simp [updatesOk, hist1]

/-- **C19** `merge` is idempotent: merging the same text again changes nothing. -/
theorem C19_merge_idempotent (text : Bytes) (t : TagCloud) (h : MapOk t.tags) :
    (((t.merge text).2).merge text).2 = (t.merge text).2 := by
  by_cases hok : (t.merge text).1 = .ok ()
  · have hok2 : ∀ u : TagCloud, (u.merge text).1 = .ok () := by
      intro u
      unfold merge at *
      split at hok
      · rfl
      · rename_i r M hne _; exact absurd hok hne
    have hr : Represents t.tags ⟨KeyIn t.tags, ValIn t.tags⟩ := ⟨fun _ => Iff.rfl, fun _ _ => Iff.rfl⟩
    obtain ⟨a1, a2, a3⟩ := C19_step (.merge text) t _ h hr hok
    obtain ⟨b1, b2, b3⟩ := C19_step (.merge text) (t.merge text).2 _ a1 a2 (hok2 _)
    simp only [CloudOp.run, CloudOp.meaning, AbsCloud.merge] at a1 a2 a3 b1 b2 b3
    have htags := mapOk_ext b1 a1 (fun k => by rw [b2.1, a2.1]; simp)
      (fun k v => by rw [b2.2, a2.2]; simp)
    revert htags a3 b3
    generalize ((t.merge text).2.merge text).2 = x
    generalize (t.merge text).2 = y
    intro h1 h2 h3
    cases x; cases y; simp_all
  · rw [C47_merge text t hok, C47_merge text t hok]

example : ((tc1.merge [0x6b, 0x3d, 0x77]).1 = .ok ()) ∧ (tc1.merge [0x6b, 0x3d, 0x77]).2 ≠ tc1 := by decide

/-- **C19** Nothing that `add_key`, `add_value` or `merge` does removes a key or a value. -/
theorem C19_adding_keeps (op : CloudOp) (hop : ∀ text, op ≠ .update text) (t : TagCloud)
    (h : MapOk t.tags) (k v : Bytes) :
    (t.hasKey k = true → (op.run t).2.hasKey k = true) ∧
    (t.hasValue k v = true → (op.run t).2.hasValue k v = true) := by
  have hr : Represents t.tags ⟨KeyIn t.tags, ValIn t.tags⟩ := ⟨fun _ => Iff.rfl, fun _ _ => Iff.rfl⟩
  by_cases hok : (op.run t).1 = .ok ()
  · obtain ⟨a1, a2, -⟩ := C19_step op t _ h hr hok
    obtain ⟨c1, c2⟩ := C19_observers t _ h hr k v
    obtain ⟨d1, d2⟩ := C19_observers _ _ a1 a2 k v
    rw [c1, c2, d1, d2]
    cases op with
    | addKey k' => exact ⟨.inr, fun hh => hh⟩
    | addValue k' v' => exact ⟨.inr, .inr⟩
    | merge text => exact ⟨.inr, .inr⟩
    | update text => exact absurd rfl (hop text)
  · cases op with
    | addKey k' => exact absurd rfl hok
    | addValue k' v' => exact absurd rfl hok
    | merge text => rw [show (CloudOp.merge text).run t = t.merge text from rfl, C47_merge text t hok]; exact ⟨id, id⟩
    | update text => exact absurd rfl (hop text)

/-- **C19** Text made of `key=values` fields in which everything decodes is accepted. -/
theorem C19_accepts (text : Bytes) (t : TagCloud)
    (hw : ∀ p ∈ splitOn 0x26 text, ∃ a b, p = a ++ 0x3d :: b ∧ 0x3d ∉ a ∧ (∃ k, Means a k) ∧
      ∀ w ∈ splitOn 0x2c b, ∃ v, Means w v) :
    (t.merge text).1 = .ok () ∧ (t.update text).1 = .ok () := by
  have hp := parse_complete text hw
  unfold merge update
  obtain ⟨M, hM⟩ := hp
  rw [hM]
  exact ⟨rfl, rfl⟩

/-- "k=w%20&k=": the hypothesis is met, with two fields for one key. -/
example : splitOn 0x26 [0x6b, 0x3d, 0x77, 0x25, 0x32, 0x30, 0x26, 0x6b, 0x3d] =
    [[0x6b] ++ 0x3d :: [0x77, 0x25, 0x32, 0x30], [0x6b] ++ 0x3d :: []] ∧
    (tc1.merge [0x6b, 0x3d, 0x77, 0x25, 0x32, 0x30, 0x26, 0x6b, 0x3d]).1 = .ok () := by decide

/-- **C19** Text is refused, with `std::invalid_argument` and nothing else, or accepted. -/
theorem C19_outcomes (text : Bytes) (t : TagCloud) :
    ((t.merge text).1 = .ok () ∨ (t.merge text).1 = .throw .invalidArgument) ∧
    ((t.update text).1 = (t.merge text).1) := by
  unfold merge update
  rcases parse_spec text with ⟨M, e, -⟩ | ⟨M, e⟩ <;> rw [e] <;> simp

/-! ### C47 -/

/-- C47 in full. -/
def C47_claim : Prop :=
  ∀ (t : TagCloud) (text : Bytes), MapOk t.tags →
    ((t.merge text).1 ≠ .ok () → (t.merge text).2 = t) ∧
    ((t.update text).1 ≠ .ok () → (t.update text).2 = t)

/-- **Finding**: `update` clears the cloud before it parses the text. -/
theorem C47_update_refuted : ¬ C47_claim := by
  intro h
  have := (h tc1 [0x25, 0x7a, 0x7a] tc1_ok).2
  revert this
  decide

/-- **Finding**: a history with an `update` that is refused loses everything there was: the cloud is cleared before the text is parsed. -/
theorem C19_refuted : ¬ C19_history_claim := by
  intro h
  have hr : Represents tc1.tags ⟨KeyIn tc1.tags, ValIn tc1.tags⟩ := ⟨fun _ => Iff.rfl, fun _ _ => Iff.rfl⟩
  have h1 := (h [.update [0x25, 0x7a, 0x7a]] tc1 _ tc1_ok hr).1 [0x6b]
  have e : (history [.update [0x25, 0x7a, 0x7a]] (tc1, ⟨KeyIn tc1.tags, ValIn tc1.tags⟩)).1.tags = [] := by decide
  rw [e] at h1
  have e2 : ((CloudOp.update [0x25, 0x7a, 0x7a]).run tc1).1 = .throw .invalidArgument := by decide
  have h2 := h1.2 (by
    simp only [history, CloudOp.meaningIn, e2]
    exact ⟨[], by decide⟩)
  simp at h2

/-! ### C48 -/

/-- C48 for tag clouds: parsing a frame body of any bytes reads only those bytes. -/
def C48_xtag_claim : Prop := ∀ b : Bytes, ∃ r, parse b = some r ∧ ∀ u, r ≠ .ub u

/-- **Finding**: a body that ends in the middle of an entry is read past its end. -/
theorem C48_xtag_refuted : ¬ C48_xtag_claim := by
  intro h
  obtain ⟨r, h1, h2⟩ := h [1, 0x6f, 0, 0x6b, 0, 0, 0]
  have e : parse [1, 0x6f, 0, 0x6b, 0, 0, 0] = some (.ub .oobRead) := by decide
  rw [e] at h1
  cases h1
  exact h2 _ rfl

/-- **C48** Parsing a tag cloud from any bytes comes to an end: the loops make progress
even when the lengths in the frame are lies. (Missing: it may end in undefined
behaviour.) -/
theorem C48_xtag_terminates_partial (b : Bytes) : parse b ≠ none := parse_total b

/-- "k" with a length of 2³²-1: the length wraps and the loop runs off the end. -/
example : parse [1, 0x6f, 0, 0x6b, 0, 0xff, 0xff, 0xff, 0xff, 0x61, 0] = some (.ub .oobRead) := by
  decide +kernel

/-- **Finding**: for a cloud with a key without values, deciding whether the frame needs
unsynchronisation dereferences the end of the (empty) value set. -/
theorem C48_xtag_needs_unsync_refuted :
    ¬ ∀ t : TagCloud, MapOk t.tags → ∀ u, TagCloud.countSyncs t true ≠ .ub u := by
  intro h
  exact h (TagCloud.addKey [0x6b] ⟨[], []⟩).2 (by unfold MapOk SetOk; exact ⟨by decide, by decide⟩) .oobRead (by decide)

end Scribbu.Props
