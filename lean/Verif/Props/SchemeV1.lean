import Verif.Props.Scheme
import Verif.Spec.SchemeV1
import Verif.Props.Id3v1
import Verif.Props.Charset

/-! C134: `read-id3v1-tag` says what is in the tag. C135: `write-id3v1-tag` writes what `read-id3v1-tag` then reads. -/

namespace Scribbu.Props
open Scribbu Scribbu.Spec Scribbu.Scheme Scribbu.Spec.Scheme Scribbu.Proofs.Scheme

/-- The rest of a file before an ID3v1 tag does not have "TAG+" where it would be part of that tag. -/
def NoTagPlus (body : Bytes) : Prop := ¬ ∃ a b, body = a ++ TAGP ++ b ∧ b.length = 223

/-! ## Reading -/

theorem field1_ok {E : Scheme.Env} {e : Encoding} {rsp : OnNo} {b : Bytes} {v : Val} (h : FieldSays E e rsp b v) :
    E.field1 e rsp b = .ok v := by
  obtain ⟨s, h1, h2, rfl⟩ := h
  unfold Env.field1 Env.text
  rw [h1, ofRes_ok, ok_bind, h2]

theorem seek_back (body w : Bytes) (n : Int) (hw : (w.length : Int) = n) :
    SM.seekBeg (((body ++ w).length : Int) - n) ⟨body ++ w, 0, IoBits.all, IoBits.none⟩ =
      (.ok (), ⟨body ++ w, body.length, IoBits.all, IoBits.none⟩) := by
  have : ((body ++ w).length : Int) - n = (body.length : Int) := by
    rw [List.length_append]; omega
  rw [this, SM.seekBeg_nat]

/-- An ID3v1 tag at the end of a file is read. -/
theorem process_std (body : Bytes) (f : StdFields) (hf : f.Ok) (hb : NoTagPlus body) :
    ∃ t s, processId3v1 ⟨body ++ f.image, 0, IoBits.all, IoBits.none⟩ = (.ok (some t), s) ∧
      t.title = f.title ∧ t.artist = f.artist ∧ t.album = f.album ∧ t.year = f.year ∧
      t.genre = f.genre ∧ t.extended = false ∧
      ((t.v11 = true ∧ ∃ n, n ≠ 0 ∧ t.track = some n ∧ f.comment = t.comment ++ [0, n]) ∨
       (t.v11 = false ∧ ¬ Is11 f.comment ∧ t.comment = f.comment)) := by
  obtain ⟨t, h, h1, h2, h3, h4, h5, h6, h7, -⟩ := C10_standard body f hf IoBits.all
  refine ⟨t, ⟨body ++ f.image, (body ++ f.image).length, IoBits.all, IoBits.none⟩, ?_, h1, h2, h3, h4, h5, h6, h7⟩
  have hlen : f.image.length = 128 := image_length hf
  have hne : ¬ ∃ k, ExtAt (body ++ f.image) k := by
    rintro ⟨k, a, b, hab, hk, hbl⟩
    apply hb
    refine ⟨a, b.take 223, ?_, by simp [hbl]⟩
    have e2 : a ++ TAGP ++ b = (a ++ TAGP ++ b.take 223) ++ b.drop 223 := by
      rw [List.append_assoc _ (b.take 223), List.take_append_drop]
    rw [e2] at hab
    exact (List.append_inj' hab (by rw [hlen, List.length_drop, hbl])).1
  have hst : StdAt (body ++ f.image) body.length := by
    refine ⟨body, f.image.drop 3, ?_, rfl, by rw [List.length_drop, hlen]⟩
    simp [StdFields.image, TAG]
  unfold processId3v1
  rw [SM.bind_ok (endsInId3v1_spec _ 0 IoBits.all)]
  have hs' : ∃ n, StdAt (body ++ f.image) n := ⟨_, hst⟩
  simp only [findV1, hne, hs', if_true, if_false, ne_eq, reduceCtorEq, not_false_eq_true]
  rw [SM.bind_ok (seek_back body f.image 128 (by omega)), SM.bind_ok h]
  rfl

/-- So is an enhanced one. -/
theorem process_ext (body : Bytes) (e : ExtFields) (f : StdFields) (he : e.Ok) (hf : f.Ok) :
    ∃ t s, processId3v1 ⟨body ++ (e.image ++ f.image), 0, IoBits.all, IoBits.none⟩ = (.ok (some t), s) ∧
      t.title = f.title ++ e.title ∧ t.artist = f.artist ++ e.artist ∧
      t.album = f.album ++ e.album ∧ t.year = f.year ∧ t.genre = f.genre ∧
      t.speed = some e.speed ∧ t.extGenre = e.genre ∧ t.startTime = some e.start ∧
      t.endTime = some e.stop ∧ t.extended = true ∧
      ((t.v11 = true ∧ ∃ n, n ≠ 0 ∧ t.track = some n ∧ f.comment = t.comment ++ [0, n]) ∨
       (t.v11 = false ∧ ¬ Is11 f.comment ∧ t.comment = f.comment)) := by
  obtain ⟨t, h, h1, h2, h3, h4, h5, h6, h7, h8, h9, h10, h11, -⟩ := C10_enhanced body e f he hf IoBits.all
  refine ⟨t, ⟨body ++ (e.image ++ f.image), (body ++ (e.image ++ f.image)).length, IoBits.all, IoBits.none⟩, ?_,
    h1, h2, h3, h4, h5, h6, h7, h8, h9, h10, h11⟩
  have hlen : (e.image ++ f.image).length = 355 := by rw [List.length_append, image_length hf, ext_image_length he]
  have hext : ∃ k, ExtAt (body ++ (e.image ++ f.image)) k := by
    refine ⟨body.length, body, (e.image ++ f.image).drop 4, ?_, rfl, ?_⟩
    · simp [ExtFields.image, TAGP]
    · rw [List.length_drop, hlen]
  unfold processId3v1
  rw [SM.bind_ok (endsInId3v1_spec _ 0 IoBits.all)]
  simp only [findV1, hext, if_true, ne_eq, reduceCtorEq, not_false_eq_true]
  rw [SM.bind_ok (seek_back body _ 355 (by omega)), SM.bind_ok h]
  rfl

/-- The slots up to the track number. -/
theorem fromV1_front {E : Scheme.Env} {t : V1Tag} {f : StdFields} {ti ar al ye co tr : Val}
    (h1 : FieldSays E .ISO_8859_1 .transliterate t.title ti) (h2 : FieldSays E .ISO_8859_1 .transliterate t.artist ar)
    (h3 : FieldSays E .ISO_8859_1 .transliterate t.album al) (h4 : FieldSays E .ASCII .fail t.year ye) (h5 : t.genre = f.genre)
    (h6 : CommentSays E f.comment co tr)
    (h7 : (t.v11 = true ∧ ∃ n, n ≠ 0 ∧ t.track = some n ∧ f.comment = t.comment ++ [0, n]) ∨
       (t.v11 = false ∧ ¬ Is11 f.comment ∧ t.comment = f.comment)) :
    fromV1 E t =
      let x := [ti, ar, al, ye, co, .num f.genre.toNat, tr, .str [], .nil, .str [], .str []]
      if t.extended then
        (Ret.ofRes (initd t.speed)).bind fun speed =>
        (E.field1 .ASCII .fail t.extGenre).bind fun genre =>
        (Ret.ofRes (initd t.startTime)).bind fun s => (E.field1 .ASCII .fail s).bind fun start =>
        (Ret.ofRes (initd t.endTime)).bind fun e => (E.field1 .ASCII .fail e).bind fun stop =>
        .ok ((((x.set 6 genre).set 7 (.num speed.toNat)).set 8 start).set 9 stop)
      else .ok x := by
  have key : E.field1 .ISO_8859_1 .transliterate t.comment = .ok co ∧
      (∀ x : List Val, (if t.v11 then (Ret.ofRes (initd t.track)).bind fun n => Ret.ok (x.set 6 (.num n.toNat)) else .ok x) =
        .ok (if t.v11 then x.set 6 tr else x)) ∧ (t.v11 = false → tr = .nil) := by
    generalize f.comment = cm at h6 h7
    cases h6 with
    | @v10 c v g1 g2 =>
      rcases h7 with ⟨_, n, hn, _, hc⟩ | ⟨hv, _, hc⟩
      · exact absurd ⟨_, n, hc, hn⟩ g1
      · rw [hc, hv]
        exact ⟨field1_ok g2, fun x => rfl, fun _ => rfl⟩
    | @v11 c n v g1 g2 =>
      rcases h7 with ⟨hv, m, hm, ht, hc⟩ | ⟨hv, hn, hc⟩
      · obtain ⟨e1, e2⟩ := List.append_inj' (s₁ := c) (s₂ := t.comment) hc rfl
        cases e2
        rw [← e1, hv, ht]
        exact ⟨field1_ok g2, fun x => rfl, nofun⟩
      · exact absurd ⟨c, n, rfl, g1⟩ hn
  obtain ⟨k1, k2, k3⟩ := key
  unfold fromV1
  simp only [field1_ok h1, field1_ok h2, field1_ok h3, field1_ok h4, k1, ok_bind, k2, h5]
  cases hv : t.v11 with
  | true => rfl
  | false => rw [k3 hv]; rfl

/-- C134: `read-id3v1-tag` gives an object that says what is in the tag at the end of the file. -/
def C134_claim : Prop :=
  ∀ (E : Scheme.Env) (body : Bytes) (f : StdFields) (e : Option ExtFields) (xs : List Val) (tr : Val) (ys : List Val), f.Ok →
    (∀ x, e = some x → x.Ok) → (e = none → NoTagPlus body) → V1Says E f e xs tr ys →
    readV1 E (some (body ++ image f e)) = .ok (some (xs ++ [tr] ++ ys))

/-- **Finding** Every enhanced tag is misread: the genre is put where the track number belongs, the speed where the genre belongs, the start
where the speed belongs, the end where the start belongs, and there is no end. The track number is lost. -/
theorem C134_refuted_every (E : Scheme.Env) (body : Bytes) (f : StdFields) (e : ExtFields) (xs : List Val) (tr g s st en : Val) (hf : f.Ok)
    (he : e.Ok) (h : V1Says E f (some e) xs tr [g, s, st, en]) :
    readV1 E (some (body ++ image f (some e))) = .ok (some (xs ++ [g] ++ [s, st, en, .str []])) := by
  obtain ⟨t, σ, h0, h1, h2, h3, h4, h5, h6, h7, h8, h9, h10, h11⟩ := process_ext body e f he hf
  cases h with
  | mk a1 a2 a3 a4 a5 a6 =>
    cases a6 with
    | some b1 b2 b3 =>
      have k := fromV1_front (E := E) (t := t) (f := f) (by rw [h1]; exact a1) (by rw [h2]; exact a2) (by rw [h3]; exact a3)
        (by rw [h4]; exact a4) h5 a5 h11
      unfold readV1
      simp only [image, h0, ofRes_ok, ok_bind]
      rw [k]
      simp only [h10, if_true, h6, h7, h8, h9, initd, ofRes_ok, ok_bind, field1_ok b1, field1_ok b2, field1_ok b3]
      rfl

/-- C134, as far as it holds: for tags that are not enhanced. Missing: enhanced ones, for which it never holds. -/
theorem C134_partial (E : Scheme.Env) (body : Bytes) (f : StdFields) (xs : List Val) (tr : Val) (ys : List Val) (hf : f.Ok)
    (hb : NoTagPlus body) (h : V1Says E f none xs tr ys) : readV1 E (some (body ++ f.image)) = .ok (some (xs ++ [tr] ++ ys)) := by
  obtain ⟨t, σ, h0, h1, h2, h3, h4, h5, h6, h7⟩ := process_std body f hf hb
  cases h with
  | mk a1 a2 a3 a4 a5 a6 =>
    cases a6
    have k := fromV1_front (E := E) (t := t) (f := f) (by rw [h1]; exact a1) (by rw [h2]; exact a2) (by rw [h3]; exact a3)
      (by rw [h4]; exact a4) h5 a5 h7
    unfold readV1
    simp only [h0, ofRes_ok, ok_bind]
    rw [k]
    simp only [h6, Bool.false_eq_true, if_false, ok_bind]
    rfl

/-- Without a tag there is no object, and no error. -/
theorem C134_none_partial (E : Scheme.Env) (file : Bytes) (h1 : ¬ ∃ n, ExtAt file n) (h2 : ¬ ∃ n, StdAt file n) :
    readV1 E (some file) = .ok none := by
  have : processId3v1 ⟨file, 0, IoBits.all, IoBits.none⟩ = (.ok none, ⟨file, 0, IoBits.all, IoBits.none⟩) := by
    unfold processId3v1
    rw [SM.bind_ok (endsInId3v1_spec _ 0 IoBits.all)]
    simp only [findV1, h1, h2, if_false, ne_eq, not_true_eq_false]
    rfl
  unfold readV1
  simp only [this, ofRes_ok, ok_bind]
  rfl

/-! ## Conversions -/

/-- The library converts UTF-8, ISO-8859-1 and ASCII to UTF-8 as iconv does. -/
def Lawful1 (E : Scheme.Env) : Prop :=
  (∃ d f, Charset.openConv E.lib .UTF_8 .UTF_8 .fail = .ok d ∧ ByFunction d f ∧ ∀ b, E.valid b = true → f b = some b) ∧
  (∃ d f, Charset.openConv E.lib .ISO_8859_1 .UTF_8 .transliterate = .ok d ∧ ByFunction d f ∧ ∀ b, f b = some (latinUtf8 b)) ∧
  (∃ d f, Charset.openConv E.lib .ASCII .UTF_8 .fail = .ok d ∧ ByFunction d f ∧ ∀ b, Ascii b → f b = some b) ∧
  (∀ b, E.valid b = true → E.lenient b = some b) ∧ (∀ b, Ascii b → E.valid b = true) ∧ 0 < E.mem

theorem latin_ascii {b : Bytes} (h : Ascii b) : latinUtf8 b = b := by
  induction b with
  | nil => rfl
  | cons c b ih =>
    have h1 := h c (by simp)
    have h2 := ih fun x hx => h x (by simp [hx])
    unfold latinUtf8 at h2 ⊢
    rw [List.flatMap_cons, h2, if_pos h1]
    rfl

theorem strip_padded {n : Nat} {b : Bytes} (h : FitText n b) : Tbt.stripTrailing (padded n b) = b := by
  obtain ⟨h0, h1, h2⟩ := h
  have e : padded n b = b ++ List.replicate (n - b.length) 0 := by
    unfold padded
    rw [List.take_append, List.take_of_length_le h2, List.take_replicate]
    congr 2
    omega
  unfold Tbt.stripTrailing
  rw [e, List.reverse_append, List.reverse_replicate]
  have : ∀ (k : Nat) (l : Bytes), (List.replicate k (0 : Byte) ++ l).dropWhile (fun c => c == 0 || c == 32) =
      l.dropWhile (fun c => c == 0 || c == 32) := by
    intro k l
    induction k with
    | zero => rfl
    | succ k ih => rw [List.replicate_succ, List.cons_append, List.dropWhile_cons_of_pos (by decide), ih]
  rw [this]
  cases hr : b.reverse with
  | nil => rw [List.reverse_eq_nil_iff] at hr; simp [hr]
  | cons x xs =>
    have hx : b.getLast? = some x := by rw [← List.head?_reverse, hr]; rfl
    have hm : x ∈ b := List.mem_of_getLast? hx
    rw [List.dropWhile_cons_of_neg, ← hr, List.reverse_reverse]
    simp only [Bool.or_eq_true, beq_iff_eq, not_or]
    exact ⟨fun e => h0 (e ▸ hm), fun e => h1 (e ▸ hx)⟩

theorem bom_ascii {b : Bytes} (h : Ascii b) : Tbt.stripBom b = b := by
  unfold Tbt.stripBom
  split
  · exact absurd (h 0xfe (by simp)) (by decide)
  · exact absurd (h 0xfe (by simp)) (by decide)
  · exact absurd (h 0xef (by simp)) (by decide)
  · exact absurd (h 0xfe (by simp)) (by decide)
  · exact absurd (h 0xff (by simp)) (by decide)
  · rfl

theorem padded_ascii {n : Nat} {b : Bytes} (h : Ascii b) : Ascii (padded n b) := by
  intro c hc
  have := List.mem_of_mem_take hc
  rcases List.mem_append.1 this with h' | h'
  · exact h c h'
  · rw [(List.mem_replicate.1 h').2]; decide

/-- A field with this text, and null characters, is read as this text. -/
theorem padded_says {E : Scheme.Env} {e : Encoding} {rsp : OnNo} {d : Descriptor} {f : Bytes → Option Bytes} {n : Nat} {b : Bytes}
    (hd : Charset.openConv E.lib e .UTF_8 rsp = .ok d) (hf : ByFunction d f) (hm : 0 < E.mem) (hn : 0 < n) (hb : FitText n b)
    (ha : Ascii b) (ho : f (padded n b) = some (padded n b)) (hl : E.lenient b = some b) : FieldSays E e rsp (padded n b) (.str b) := by
  refine ⟨b, ?_, hl, rfl⟩
  have hlen : (padded n b).length = n := padded_length b n
  obtain ⟨m, hm'⟩ : ∃ m, E.mem = m + 1 := ⟨E.mem - 1, by omega⟩
  unfold Charset.toText
  rw [if_neg (by decide +kernel), if_neg (by omega), hd]
  simp only [Res.bind, hm']
  rw [growString_done hf ho m d.init _ ?_]
  · simp only
    rw [bom_ascii (padded_ascii ha), strip_padded hb]
  · rw [hlen]
    have := Nat.one_le_two_pow (n := 2 * m)
    have h4 : 1 ≤ 4 ^ m := Nat.one_le_pow _ _ (by omega)
    calc n ≤ n * 4 := by omega
      _ ≤ n * 4 * 4 ^ m := Nat.le_mul_of_pos_right _ (by omega)

/-- Text in UTF-8 is stored as it is. -/
theorem encode_same {E : Scheme.Env} (hE : Lawful1 E) {b : Bytes} (hv : E.valid b = true) (hz : (0 : Byte) ∉ b) :
    E.encode .UTF_8 b = .ok b := by
  unfold Env.encode
  by_cases hb : b = []
  · subst hb
    rfl
  · obtain ⟨⟨d, f, h1, h2, h3⟩, -⟩ := hE
    have k := C75_partial E.lib E.mem .UTF_8 .UTF_8 .fail false b [] d f (by decide +kernel) h1 h2 hb hz (.inl rfl)
      (fun out ho => by rw [h3 b hv] at ho; cases ho; omega)
    rw [List.append_nil, h3 b hv] at k
    rw [k]
    rfl

/-! ## Writing -/

/-- C135: what is written with `write-id3v1-tag`, provided there is room for it in a tag, is what `read-id3v1-tag` then gives. -/
def C135_claim : Prop :=
  ∀ (E : Scheme.Env) (x : V1Obj) (d body : Bytes), Lawful1 E → x.Fits → (∀ b ∈ x.texts, E.valid b = true) →
    maybeRemoveId3v1 d = .ok body → NoTagPlus body →
    ∃ d', writeV1 E x.slots (some d) = .ok d' ∧ readV1 E (some d') = .ok (some x.slots)

/-- The parts of the tag. -/
def stdOf (x : V1Obj) : StdFields :=
  ⟨padded 30 x.title, padded 30 x.artist, padded 30 x.album, padded 4 x.year,
   (match x.track with
    | none => padded 30 x.comment
    | some n => padded 28 x.comment ++ [0, UInt8.ofNat n]), UInt8.ofNat x.genre⟩

theorem cstr_ok {b : Bytes} (h : (0 : Byte) ∉ b) : cstr (.str b) = .ok b := by
  unfold cstr
  simp only
  rw [if_neg h]

theorem setText_ok {E : Scheme.Env} (hE : Lawful1 E) {op : Bytes → V1Tag.Op} {b : Bytes} {t : V1Tag} (hv : E.valid b = true)
    (hz : (0 : Byte) ∉ b) : setText E op b t = .ok (if b = [] then t else t.apply (op b)) := by
  unfold setText
  split
  · rfl
  · rw [encode_same hE hv hz, ok_bind]

theorem resized {n : Nat} {b : Bytes} : (if b = [] then List.replicate n (0 : Byte) else resize b n) = padded n b := by
  split
  · rename_i h; rw [h, padded_nil]
  · exact resize_eq_padded b n

theorem slice_all (b : Bytes) (n : Nat) (h : b.length = n) : slice b 0 n = .ok b := by
  unfold slice
  rw [if_pos (by omega), List.drop_zero, List.take_of_length_le (by omega)]

theorem set_title {E : Scheme.Env} (hE : Lawful1 E) {b : Bytes} {t : V1Tag} (hv : E.valid b = true) (hz : (0 : Byte) ∉ b)
    (he : t.extended = false) (h : t.title = List.replicate 30 0) : setText E .setTitle b t = .ok { t with title := padded 30 b } := by
  rw [setText_ok hE hv hz, ← resized, ← h]
  split
  · rfl
  · simp [V1Tag.apply, V1Tag.textSz, he]

theorem set_artist {E : Scheme.Env} (hE : Lawful1 E) {b : Bytes} {t : V1Tag} (hv : E.valid b = true) (hz : (0 : Byte) ∉ b)
    (he : t.extended = false) (h : t.artist = List.replicate 30 0) : setText E .setArtist b t = .ok { t with artist := padded 30 b } := by
  rw [setText_ok hE hv hz, ← resized, ← h]
  split
  · rfl
  · simp [V1Tag.apply, V1Tag.textSz, he]

theorem set_album {E : Scheme.Env} (hE : Lawful1 E) {b : Bytes} {t : V1Tag} (hv : E.valid b = true) (hz : (0 : Byte) ∉ b)
    (he : t.extended = false) (h : t.album = List.replicate 30 0) : setText E .setAlbum b t = .ok { t with album := padded 30 b } := by
  rw [setText_ok hE hv hz, ← resized, ← h]
  split
  · rfl
  · simp [V1Tag.apply, V1Tag.textSz, he]

theorem set_comment {E : Scheme.Env} (hE : Lawful1 E) {b : Bytes} {t : V1Tag} (hv : E.valid b = true) (hz : (0 : Byte) ∉ b)
    (he : t.extended = false) : setText E .setComment b t = .ok { t with comment := if b = [] then t.comment else padded 30 b } := by
  rw [setText_ok hE hv hz]
  split
  · rfl
  · simp [V1Tag.apply, V1Tag.textSz, he, resize_eq_padded]

theorem set_year {b : Bytes} {t : V1Tag} (hz : (0 : Byte) ∉ b) (h6 : b = [] ∨ b.length = 4) (h : t.year = List.replicate 4 0) :
    setFixed 4 .setYear b t = .ok { t with year := padded 4 b } := by
  unfold setFixed
  split
  · rename_i hb
    rw [hb, padded_nil, ← h]
  · rename_i hb
    rw [if_pos (h6.resolve_left hb)]
    simp only [V1Tag.apply]
    rw [cstrField_eq]
    congr 3
    have hall : ∀ c ∈ b, decide (c ≠ (0 : Byte)) = true := by
      intro c hc
      have : c ≠ 0 := by rintro rfl; exact hz hc
      simpa using this
    simpa using List.takeWhile_append_of_pos (l₂ := []) hall

/-- The tag for an object that is not enhanced. -/
def plainTag (x : V1Obj) : V1Tag :=
  { V1Tag.scratch x.track.isSome false with
    title := padded 30 x.title, artist := padded 30 x.artist, album := padded 30 x.album, year := padded 4 x.year,
    comment := if x.comment = [] then (V1Tag.scratch x.track.isSome false).comment else padded 30 x.comment,
    genre := UInt8.ofNat x.genre, track := x.track.map UInt8.ofNat }

/-- The tag that is made of an object that is not enhanced writes these bytes. -/
theorem toV1_ok {E : Scheme.Env} (hE : Lawful1 E) (x : V1Obj) (hx : x.Fits) (he : x.ext = none) (hv : ∀ b ∈ x.texts, E.valid b = true) :
    ∃ t, toV1 E x.slots = .ok t ∧ t.write = .ok (stdOf x).image := by
  obtain ⟨f1, f2, f3, f4, ⟨f5, f6, -⟩, f7, f8, -⟩ := hx
  have v : ∀ b, b = x.title ∨ b = x.artist ∨ b = x.album ∨ b = x.comment → E.valid b = true := by
    intro b hb
    apply hv b
    simpa [V1Obj.texts] using hb
  have u8 : ∀ n, n < 256 → toUnsigned 8 (.num n) = .ok n := by
    intro n hn
    unfold toUnsigned
    simp only
    rw [if_pos (by simpa using hn)]
  have hc : ∀ n, x.track = some n → UInt8.ofNat n ≠ 0 := by
    intro n hn h0
    have h1 := congrArg UInt8.toNat h0
    have := f8 n hn
    simp only [UInt8.toNat_ofNat', UInt8.toNat_zero] at h1
    omega
  have hl : ∀ (n : Nat) (b : Bytes), slice (padded n b) 0 n = .ok (padded n b) := fun n b => slice_all _ _ (padded_length b n)
  have h30 : padded 30 x.comment = padded 28 x.comment ++ (padded 30 x.comment).drop 28 := by
    have e : padded 28 x.comment = (padded 30 x.comment).take 28 := by
      unfold padded
      rw [List.take_take, List.take_append, List.take_append, List.take_replicate, List.take_replicate]
      congr 2
      omega
    rw [e, List.take_append_drop]
  refine ⟨plainTag x, ?_, ?_⟩
  · unfold toV1 V1Obj.slots
    rw [he]
    cases ht : x.track with
    | none =>
      simp only [slot, List.cons_append, List.nil_append, List.getElem?_cons_zero, List.getElem?_cons_succ, ok_bind, cstr_ok f1.1, cstr_ok f2.1,
        cstr_ok f3.1, cstr_ok f4.1, cstr_ok f5.1, u8 _ f7, ifSet, isNull, cstr_ok (b := []) (by simp)]
      show ((setText E .setTitle x.title (V1Tag.scratch false false)).bind _) = _
      rw [set_title (t := V1Tag.scratch false false) hE (v x.title (by simp)) f1.1 rfl rfl, ok_bind,
        set_artist hE (v x.artist (by simp)) f2.1 rfl rfl, ok_bind, set_album hE (v x.album (by simp)) f3.1 rfl rfl, ok_bind,
        set_year f5.1 f6 rfl, ok_bind, set_comment hE (v x.comment (by simp)) f4.1 rfl, ok_bind]
      unfold plainTag
      rw [ht]
      rfl
    | some n =>
      obtain ⟨n0, n1⟩ := f8 n ht
      obtain ⟨m, rfl⟩ : ∃ m, n = m + 1 := ⟨n - 1, by omega⟩
      simp only [slot, List.cons_append, List.nil_append, List.getElem?_cons_zero, List.getElem?_cons_succ, ok_bind, cstr_ok f1.1, cstr_ok f2.1,
        cstr_ok f3.1, cstr_ok f4.1, cstr_ok f5.1, u8 _ f7, u8 _ n1, ifSet, isNull, cstr_ok (b := []) (by simp)]
      show ((setText E .setTitle x.title (V1Tag.scratch true false)).bind _) = _
      rw [set_title (t := V1Tag.scratch true false) hE (v x.title (by simp)) f1.1 rfl rfl, ok_bind,
        set_artist hE (v x.artist (by simp)) f2.1 rfl rfl, ok_bind, set_album hE (v x.album (by simp)) f3.1 rfl rfl, ok_bind,
        set_year f5.1 f6 rfl, ok_bind, set_comment hE (v x.comment (by simp)) f4.1 rfl, ok_bind]
      unfold plainTag
      rw [ht]
      rfl
  · unfold V1Tag.write plainTag stdOf
    cases ht : x.track with
    | none =>
      simp only [V1Tag.scratch, Option.isSome_none, Bool.false_eq_true, if_false, Res.bind, hl]
      have : (if x.comment = [] then List.replicate 30 (0 : Byte) else padded 30 x.comment) = padded 30 x.comment := by
        split
        · rename_i h; rw [h, padded_nil]
        · rfl
      rw [this, hl]
      simp [StdFields.image, TAG]
    | some n =>
      simp only [V1Tag.scratch, Option.isSome_some, Bool.false_eq_true, if_false, if_true, Res.bind, hl, Option.map_some, initd]
      have : slice (if x.comment = [] then List.replicate 28 (0 : Byte) else padded 30 x.comment) 0 28 = .ok (padded 28 x.comment) := by
        split
        · rename_i h
          rw [h, ← padded_nil, hl]
        · unfold slice
          rw [padded_length, if_pos (by omega), h30, List.drop_zero, List.take_append_of_le_length (by rw [padded_length]; omega),
            List.take_of_length_le (by rw [padded_length]; omega)]
      rw [this]
      simp [StdFields.image, TAG]

theorem stdOf_ok (x : V1Obj) : (stdOf x).Ok := by
  refine ⟨padded_length _ _, padded_length _ _, padded_length _ _, padded_length _ _, ?_⟩
  unfold stdOf
  cases x.track with
  | none => exact padded_length _ _
  | some n => simp [padded_length]

/-- The tag written for an object says what the object says. -/
theorem stdOf_says {E : Scheme.Env} (hE : Lawful1 E) (x : V1Obj) (hx : x.Fits) (he : x.ext = none) (ha : ∀ b ∈ x.texts, Ascii b) :
    ∃ xs tr ys, V1Says E (stdOf x) none xs tr ys ∧ xs ++ [tr] ++ ys = x.slots := by
  obtain ⟨-, ⟨d1, g1, l1, l2, l3⟩, ⟨d2, g2, a1, a2, a3⟩, hl, hv, hm⟩ := hE
  obtain ⟨f1, f2, f3, f4, ⟨f5, f6, f9⟩, f7, f8, -⟩ := hx
  rw [if_pos he] at f1 f2 f3
  have t : ∀ n b, 0 < n → FitText n b → Ascii b → FieldSays E .ISO_8859_1 .transliterate (padded n b) (.str b) := by
    intro n b hn hb ha
    refine padded_says l1 l2 hm hn hb ha ?_ (hl b (hv b ha))
    rw [l3, latin_ascii (padded_ascii ha)]
  have y : FieldSays E .ASCII .fail (padded 4 x.year) (.str x.year) :=
    padded_says a1 a2 hm (by omega) f5 f9 (a3 _ (padded_ascii f9)) (hl _ (hv _ f9))
  have hg : UInt8.toNat (UInt8.ofNat x.genre) = x.genre := by
    rw [UInt8.toNat_ofNat']
    exact Nat.mod_eq_of_lt f7
  have a : ∀ b, b = x.title ∨ b = x.artist ∨ b = x.album ∨ b = x.comment → Ascii b := by
    intro b hb
    apply ha b
    simpa [V1Obj.texts] using hb
  have c : CommentSays E (stdOf x).comment (.str x.comment) (match x.track with | none => .nil | some n => .num n) := by
    unfold stdOf
    cases ht : x.track with
    | none =>
      rw [ht] at f4
      have f4 : FitText 30 x.comment := f4
      refine .v10 ?_ (t 30 _ (by omega) f4 (a _ (by simp)))
      rintro ⟨c, n, h, hn⟩
      have h' : padded 30 x.comment = c ++ [0, n] := h
      have hlen := padded_length x.comment 30
      rw [h'] at hlen
      simp only [List.length_append, List.length_cons, List.length_nil] at hlen
      have hp : padded 30 x.comment = x.comment ++ List.replicate (30 - x.comment.length) 0 := by
        unfold padded
        rw [List.take_append, List.take_of_length_le f4.2.2, List.take_replicate]
        congr 2
        omega
      by_cases hc : 30 ≤ x.comment.length ∨ 29 ≤ x.comment.length
      · have hm : (0 : Byte) ∈ x.comment := by
          have e28 : (padded 30 x.comment)[28]? = some 0 := by
            rw [h', List.getElem?_append_right (by omega), show 28 - c.length = 0 by omega]
            rfl
          rw [hp, List.getElem?_append_left (by omega)] at e28
          exact List.mem_of_getElem? e28
        exact f4.1 hm
      · have e29 : (padded 30 x.comment)[29]? = some n := by
          rw [h', List.getElem?_append_right (by omega), show 29 - c.length = 1 by omega]
          rfl
        rw [hp, List.getElem?_append_right (by omega), List.getElem?_replicate] at e29
        split at e29
        · cases e29
          exact hn rfl
        · cases e29
    | some n =>
      rw [ht] at f4
      obtain ⟨n0, n1⟩ := f8 n ht
      have e : (UInt8.ofNat n).toNat = n := by
        rw [UInt8.toNat_ofNat']
        exact Nat.mod_eq_of_lt n1
      have := CommentSays.v11 (E := E) (c := padded 28 x.comment) (n := UInt8.ofNat n) (v := .str x.comment)
        (fun h => by
          have := congrArg UInt8.toNat h
          rw [e] at this
          simp at this
          omega) (t 28 _ (by omega) f4 (a _ (by simp)))
      rw [e] at this
      exact this
  refine ⟨_, _, _, .mk (t 30 _ (by omega) f1 (a _ (by simp))) (t 30 _ (by omega) f2 (a _ (by simp))) (t 30 _ (by omega) f3 (a _ (by simp)))
    y c .none, ?_⟩
  unfold V1Obj.slots
  rw [he]
  cases x.track <;> simp [stdOf, hg]

/-- C135, as far as it holds: for objects that are not enhanced and say what they say in ASCII. Missing: enhanced ones, and texts that are
not in ASCII. -/
theorem C135_partial (E : Scheme.Env) (x : V1Obj) (d body : Bytes) (hE : Lawful1 E) (hx : x.Fits) (he : x.ext = none)
    (ha : ∀ b ∈ x.texts, Ascii b) (hb : maybeRemoveId3v1 d = .ok body) (hn : NoTagPlus body) :
    ∃ d', writeV1 E x.slots (some d) = .ok d' ∧ d' = body ++ (stdOf x).image ∧ readV1 E (some d') = .ok (some x.slots) := by
  obtain ⟨t, h1, h2⟩ := toV1_ok hE x hx he fun b hb => hE.2.2.2.2.1 b (ha b hb)
  obtain ⟨xs, tr, ys, h3, h4⟩ := stdOf_says hE x hx he ha
  refine ⟨_, ?_, rfl, ?_⟩
  · unfold writeV1
    rw [h1, ok_bind]
    simp only [(C12_replace d body _ t hb h2).1, ofRes_ok, caught_ok]
  · rw [C134_partial E body _ xs tr ys (stdOf_ok x) hn h3, h4]

/-! ## Cases -/

/-- A library that converts ISO-8859-1 to UTF-8; other conversions change nothing. -/
def latinLib : IconvLib := fun _ f => if f = /- ISO-8859-1 -/ [73, 83, 79, 45, 56, 56, 53, 57, 45, 49] then some (byFunction fun b => some (latinUtf8 b)) else some (byFunction some)

/-- An environment with that library. -/
def v1Env : Scheme.Env := { scmEnv with lib := latinLib, valid := fun b => b.all (· < 128) || b == [0xc3, 0xa9] }

theorem v1Env_lawful : Lawful1 v1Env := by
  refine ⟨⟨_, _, rfl, byFunction_ok _, fun b _ => rfl⟩, ⟨_, _, rfl, byFunction_ok _, fun b => rfl⟩, ⟨_, _, rfl, byFunction_ok _, fun b _ => rfl⟩,
    fun b _ => rfl, fun b h => ?_, by decide⟩
  simp only [v1Env, Bool.or_eq_true]
  left
  rw [List.all_eq_true]
  intro c hc
  simpa using h c hc

/-- A track of an album. -/
def v1Obj : V1Obj := ⟨/- Help! -/ [72, 101, 108, 112, 33], /- The Beatles -/ [84, 104, 101, 32, 66, 101, 97, 116, 108, 101, 115], /- Help! -/ [72, 101, 108, 112, 33], /- 1965 -/ [49, 57, 54, 53], /- a comment -/ [97, 32, 99, 111, 109, 109, 101, 110, 116], 17, some 7, none⟩

theorem v1Obj_fits : v1Obj.Fits := by
  refine ⟨?_, ?_, ?_, ?_, ?_, by decide, ?_, nofun⟩
  · exact ⟨by decide, by decide, by decide⟩
  · exact ⟨by decide, by decide, by decide⟩
  · exact ⟨by decide, by decide, by decide⟩
  · exact ⟨by decide, by decide, by decide⟩
  · exact ⟨⟨by decide, by decide, by decide⟩, .inr rfl, by unfold Ascii; decide⟩
  · rintro k ⟨⟩
    decide

theorem short_noTagPlus {b : Bytes} (h : b.length < 227) : NoTagPlus b := by
  rintro ⟨x, y, rfl, hy⟩
  simp [TAGP, hy] at h
  omega

example : ∃ d', writeV1 v1Env v1Obj.slots (some [1, 2, 3]) = .ok d' ∧ d' = [1, 2, 3] ++ (stdOf v1Obj).image ∧
    readV1 v1Env (some d') = .ok (some v1Obj.slots) :=
  C135_partial v1Env v1Obj [1, 2, 3] [1, 2, 3] v1Env_lawful v1Obj_fits rfl (by unfold Ascii; decide +kernel) (by decide +kernel)
    (short_noTagPlus (by decide))

/-- A tag of an enhanced file. -/
def v1Ext : V1Obj := { v1Obj with ext := some (/- Beat -/ [66, 101, 97, 116], 2, /- 000:10 -/ [48, 48, 48, 58, 49, 48], /- 002:30 -/ [48, 48, 50, 58, 51, 48]) }

/-- **Finding** C134 is refuted: of an enhanced tag the slots from track-no on are wrong. -/
theorem C134_refuted : ¬ C134_claim := by
  intro h
  have hok : (sampleStd 3).Ok := by simp [sampleStd, StdFields.Ok]
  have hok' : sampleExt.Ok := by simp [sampleExt, ExtFields.Ok]
  have says := V1Says.mk (E := v1Env) (f := sampleStd 3) (e := some sampleExt)
    ⟨[0x48, 0x69] ++ List.replicate 28 0 ++ List.replicate 60 0x44, by decide +kernel, rfl, rfl⟩
    ⟨List.replicate 30 0x41 ++ List.replicate 60 0x45, by decide +kernel, rfl, rfl⟩ ⟨List.replicate 30 0x42, by decide +kernel, rfl, rfl⟩
    ⟨[0x31, 0x39, 0x39, 0x31], by decide +kernel, rfl, rfl⟩
    (.v11 (c := List.replicate 28 0x43) (n := 3) (by decide) ⟨List.replicate 28 0x43, by decide +kernel, rfl, rfl⟩)
    (.some ⟨List.replicate 30 0x46, by decide +kernel, rfl, rfl⟩ ⟨List.replicate 6 0x30, by decide +kernel, rfl, rfl⟩
      ⟨List.replicate 6 0x31, by decide +kernel, rfl, rfl⟩)
  have k := (C134_refuted_every v1Env [] _ _ _ _ _ _ _ _ hok hok' says).symm.trans
    (h v1Env [] _ _ _ _ _ hok (by rintro x ⟨⟩; exact hok') nofun says)
  simp at k

/-- What comes back. -/
def back (x : V1Obj) : Ret (Option (List Val)) := (writeV1 v1Env x.slots (some [1, 2, 3])).bind fun d => readV1 v1Env (some d)

/-- **Finding** C135 is refuted: what is written in UTF-8 is read as ISO-8859-1, so that "é" comes back as "Ã©". -/
theorem C135_refuted : ¬ C135_claim := by
  intro h
  obtain ⟨h1, h2, h3, h4, h5, h6, h7, h8⟩ := v1Obj_fits
  obtain ⟨d', k1, k2⟩ := h v1Env { v1Obj with title := [0xc3, 0xa9] } [1, 2, 3] [1, 2, 3] v1Env_lawful
    ⟨⟨by decide, by decide, by decide⟩, h2, h3, h4, h5, h6, h7, h8⟩ (by decide +kernel) (by decide +kernel) (short_noTagPlus (by decide))
  have k : back { v1Obj with title := [0xc3, 0xa9] } = .ok (some ({ v1Obj with title := [0xc3, 0x83, 0xc2, 0xa9] } : V1Obj).slots) := by
    decide +kernel
  unfold back at k
  rw [k1, ok_bind, k2] at k
  simp [V1Obj.slots] at k

/-- **Finding** What is written of an enhanced tag is read as something else: the track number, say, as the genre. -/
theorem C135_refuted_enhanced : ¬ C135_claim := by
  intro h
  obtain ⟨h1, h2, h3, h4, h5, h6, h7, h8⟩ := v1Obj_fits
  have wider : ∀ b : Bytes, FitText 30 b → FitText 90 b := fun b hb => ⟨hb.1, hb.2.1, Nat.le_trans hb.2.2 (by omega)⟩
  obtain ⟨d', k1, k2⟩ := h v1Env v1Ext [1, 2, 3] [1, 2, 3] v1Env_lawful
    ⟨wider _ h1, wider _ h2, wider _ h3, h4, h5, h6, h7, by
      rintro g s st en ⟨⟩
      refine ⟨⟨by decide, by decide, by decide⟩, by unfold Ascii; decide, by decide, by decide, ⟨⟨by decide, by decide, by decide⟩, by unfold Ascii; decide, by decide⟩,
        ⟨⟨by decide, by decide, by decide⟩, by unfold Ascii; decide, by decide⟩⟩⟩ (by decide +kernel) (by decide +kernel) (short_noTagPlus (by decide))
  have k : back v1Ext = .ok (some (v1Ext.slots.take 6 ++ [.str /- Beat -/ [66, 101, 97, 116], .num 2, .str /- 000:10 -/ [48, 48, 48, 58, 49, 48], .str /- 002:30 -/ [48, 48, 50, 58, 51, 48], .str []])) := by
    decide +kernel
  unfold back at k
  rw [k1, ok_bind, k2] at k
  simp [V1Obj.slots, v1Ext] at k

/-- **Finding** A year that is not known, `'()`, comes back as a year that is the empty string. -/
theorem C135_refuted_year : (writeV1 v1Env newV1 (some [1, 2, 3])).bind (fun d => readV1 v1Env (some d)) = .ok (some (newV1.set 3 (.str []))) := by
  decide +kernel

end Scribbu.Props
