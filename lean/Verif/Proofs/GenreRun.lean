import Verif.Props.Genres

/-! # Matching "nue dutschll"

The whole run is evaluated by the kernel, sixteen genres at a time. The states in between are given by what has been written. -/

namespace Scribbu.Props

open Spec Genres

/-- The loop over the genres, with the array. -/
def bestF (c : Ctx) : List (List Nat) → Nat → Nat → Option Nat → Fkp → Res (Nat × Option Nat × Fkp)
  | [], _, least, best, F => .ok (least, best, F)
  | A :: rest, i, least, best, F =>
    (damerauLevenshtein c A F).bind fun r =>
    if r.1 < least then bestF c rest (i + 1) r.1 (some i) r.2 else bestF c rest (i + 1) least best r.2

theorem bestOf_append (c : Ctx) (l1 l2 : List (List Nat)) : ∀ (i least : Nat) (best : Option Nat) (F : Fkp) (l : Nat) (b : Option Nat)
    (F' : Fkp), bestF c l1 i least best F = .ok (l, b, F') →
    bestOf c (l1 ++ l2) i least best F = bestOf c l2 (i + l1.length) l b F' := by
  induction l1 with
  | nil =>
    intro i least best F l b F' h
    simp only [bestF, Res.ok.injEq, Prod.mk.injEq] at h
    obtain ⟨rfl, rfl, rfl⟩ := h
    rfl
  | cons A rest ih =>
    intro i least best F l b F' h
    rw [bestF] at h
    rw [List.cons_append, bestOf]
    cases hr : damerauLevenshtein c A F with
    | ok r =>
      rw [hr] at h
      simp only [Res.ok_bind] at h ⊢
      have e : i + (A :: rest).length = i + 1 + rest.length := by simp; omega
      rw [e]
      split at h
      · rename_i hlt
        rw [if_pos hlt]
        exact ih _ _ _ _ _ _ _ h
      · rename_i hlt
        rw [if_neg hlt]
        exact ih _ _ _ _ _ _ _ h
    | throw e => rw [hr] at h; cases h
    | ub e => rw [hr] at h; cases h

/-- "nue dutschll". -/
def nue : Ctx := ⟨[110, 117, 101, 32, 100, 117, 116, 115, 99, 104, 108, 108], 22⟩

/-- An array from what has been written. -/
def written (l : List (Nat × Int)) : Fkp := ⟨1080, -22, l.foldl (fun m x => m.setAux (x.1 + 1) x.1 x.2) .nil⟩

/-- Whether two arrays are the same. -/
def sameMem : Mem → Mem → Bool
  | .nil, .nil => true
  | .node v l r, .node v' l' r' => v == v' && sameMem l l' && sameMem r r'
  | _, _ => false

theorem sameMem_eq : ∀ m m' : Mem, sameMem m m' = true → m = m' := by
  intro m
  induction m with
  | nil => intro m' h; cases m' with
    | nil => rfl
    | node => simp [sameMem] at h
  | node v l r ihl ihr => intro m' h; cases m' with
    | nil => simp [sameMem] at h
    | node v' l' r' =>
      simp only [sameMem, Bool.and_eq_true, beq_iff_eq] at h
      rw [h.1.1, ihl _ h.1.2, ihr _ h.2]

/-- Whether this is an array of 1080 with what was written. -/
def sameFkp (F : Fkp) (F' : Fkp) : Bool := F.size == F'.size && F.fill == F'.fill && sameMem F.mem F'.mem

theorem sameFkp_eq {F F' : Fkp} (h : sameFkp F F' = true) : F = F' := by
  simp only [sameFkp, Bool.and_eq_true, beq_iff_eq] at h
  cases F
  cases F'
  simp only at h
  rw [h.1.1, h.1.2, sameMem_eq _ _ h.2]

/-- Whether the run ends so. -/
def runsTo (c : Ctx) (l : List (List Nat)) (i least : Nat) (best : Option Nat) (F : Fkp) (least' : Nat) (best' : Option Nat) (F' : Fkp) : Bool :=
  match bestF c l i least best F with
  | .ok (l, b, G) => l == least' && b == best' && sameFkp G F'
  | _ => false

theorem runsTo_eq {c : Ctx} {l : List (List Nat)} {i least : Nat} {best : Option Nat} {F : Fkp} {least' : Nat} {best' : Option Nat} {F' : Fkp}
    (h : runsTo c l i least best F least' best' F' = true) : bestF c l i least best F = .ok (least', best', F') := by
  unfold runsTo at h
  split at h
  · rename_i r _ _ _ e
    simp only [Bool.and_eq_true, beq_iff_eq] at h
    rw [e, h.1.1, h.1.2, sameFkp_eq h.2]
  · cases h

def nue0 : Fkp := written [
  (22, 21), (45, 20), (68, 19), (91, 18), (114, 17), (137, 16), (160, 15), (183, 14), (206, 13), (229, 12), (252, 11), (275, 10),
   (298, 9), (321, 8), (344, 7), (367, 6), (390, 5), (413, 4), (436, 3), (459, 2), (482, 1), (505, 0), (528, -1), (553, -1), (578, -1),
   (603, -1), (628, -1), (653, -1), (678, -1), (703, -1), (728, -1), (753, -1), (778, -1), (803, -1), (828, -1), (853, -1), (878, -1),
   (903, -1), (928, -1), (953, -1), (978, -1), (1003, -1), (1028, -1), (1053, -1), (1078, -1)]

def nue16 : Fkp := written [
  (22, 21), (45, 20), (68, 19), (91, 18), (114, 17), (137, 16), (160, 15), (183, 14), (206, 13), (229, 12), (252, 11), (275, 10),
   (298, 9), (321, 8), (344, 7), (367, 6), (390, 5), (391, 6), (413, 4), (414, 5), (415, 6), (416, 7), (436, 3), (437, 4), (438, 5),
   (439, 6), (440, 8), (441, 9), (459, 2), (460, 3), (461, 4), (462, 5), (463, 6), (464, 7), (465, 8), (466, 9), (482, 1), (483, 2),
   (484, 4), (485, 4), (486, 5), (487, 6), (488, 7), (489, 8), (490, 9), (491, 11), (505, 0), (506, 1), (507, 2), (508, 3), (509, 6),
   (510, 5), (511, 6), (512, 7), (513, 8), (514, 9), (515, 10), (516, 11), (528, -1), (529, 0), (530, 1), (531, 2), (532, 3), (533, 4),
   (534, 7), (535, 6), (536, 7), (537, 8), (538, 9), (539, 10), (540, 11), (541, 12), (553, -1), (554, 0), (555, 1), (556, 2), (557, 3),
   (558, 4), (559, 7), (560, 6), (561, 7), (562, 8), (563, 9), (564, 10), (578, -1), (579, 0), (580, 1), (581, 2), (582, 3), (583, 6),
   (584, 7), (585, 6), (586, 8), (587, 9), (603, -1), (604, 0), (605, 1), (606, 2), (607, 3), (608, 6), (609, 7), (610, 6), (628, -1),
   (629, 0), (630, 1), (631, 2), (632, 3), (633, 6), (634, 7), (635, 6), (653, -1), (654, 0), (655, 1), (656, 2), (657, 3), (658, 6),
   (659, 7), (660, 7), (678, -1), (679, 0), (680, 1), (681, 2), (682, 3), (683, 6), (684, 6), (703, -1), (704, 0), (705, 1), (706, 2),
   (707, 3), (708, 4), (728, -1), (729, 0), (730, 1), (731, 2), (732, 3), (733, 4), (753, -1), (754, 0), (755, 1), (756, 2), (757, 3),
   (778, -1), (779, 0), (780, 1), (803, -1), (828, -1), (853, -1), (878, -1), (903, -1), (928, -1), (953, -1), (978, -1), (1003, -1),
   (1028, -1), (1053, -1), (1078, -1)]

def nue32 : Fkp := written [
  (22, 21), (45, 20), (68, 19), (91, 18), (114, 17), (137, 16), (160, 15), (183, 14), (206, 13), (229, 12), (252, 11), (275, 10),
   (298, 9), (321, 8), (344, 7), (367, 6), (390, 5), (391, 6), (413, 4), (414, 6), (415, 6), (416, 7), (436, 3), (437, 4), (438, 5),
   (439, 7), (440, 8), (441, 9), (459, 2), (460, 3), (461, 4), (462, 5), (463, 6), (464, 8), (465, 8), (466, 9), (482, 1), (483, 2),
   (484, 3), (485, 4), (486, 5), (487, 6), (488, 8), (489, 10), (490, 9), (491, 11), (505, 0), (506, 1), (507, 2), (508, 3), (509, 4),
   (510, 5), (511, 7), (512, 8), (513, 9), (514, 11), (515, 10), (516, 11), (528, -1), (529, 0), (530, 1), (531, 2), (532, 3), (533, 4),
   (534, 5), (535, 6), (536, 7), (537, 8), (538, 9), (539, 11), (540, 11), (541, 12), (553, -1), (554, 0), (555, 1), (556, 2), (557, 3),
   (558, 4), (559, 5), (560, 6), (561, 7), (562, 8), (563, 9), (564, 11), (578, -1), (579, 0), (580, 1), (581, 2), (582, 3), (583, 4),
   (584, 5), (585, 6), (586, 7), (587, 8), (588, 9), (603, -1), (604, 0), (605, 1), (606, 2), (607, 3), (608, 4), (609, 5), (610, 6),
   (611, 7), (612, 8), (613, 9), (628, -1), (629, 0), (630, 1), (631, 2), (632, 3), (633, 5), (634, 6), (635, 6), (636, 7), (653, -1),
   (654, 0), (655, 1), (656, 2), (657, 3), (658, 5), (659, 6), (660, 7), (678, -1), (679, 1), (680, 2), (681, 3), (682, 4), (683, 5),
   (684, 6), (703, -1), (704, 1), (705, 2), (706, 3), (707, 4), (708, 4), (728, -1), (729, 1), (730, 2), (731, 3), (732, 4), (733, 4),
   (753, -1), (754, 1), (755, 2), (756, 3), (757, 3), (778, -1), (779, 1), (780, 1), (803, -1), (828, -1), (853, -1), (878, -1),
   (903, -1), (928, -1), (953, -1), (978, -1), (1003, -1), (1028, -1), (1053, -1), (1078, -1)]

def nue48 : Fkp := written [
  (22, 21), (45, 20), (68, 19), (91, 18), (114, 17), (137, 16), (160, 15), (183, 14), (206, 13), (229, 12), (252, 11), (275, 10),
   (298, 9), (321, 8), (322, 13), (323, 14), (344, 7), (345, 11), (346, 12), (347, 13), (348, 14), (367, 6), (368, 10), (369, 11),
   (370, 12), (371, 13), (372, 14), (373, 16), (390, 5), (391, 9), (392, 10), (393, 11), (394, 12), (395, 13), (396, 14), (397, 15),
   (398, 16), (408, -22), (409, -21), (410, -20), (411, -19), (412, -18), (413, 4), (414, 8), (415, 9), (416, 10), (417, 11), (418, 12),
   (419, 13), (420, 14), (421, 15), (422, 16), (423, 17), (432, -22), (433, -21), (434, -20), (435, -19), (436, 3), (437, 6), (438, 7),
   (439, 8), (440, 9), (441, 10), (442, 11), (443, 12), (444, 13), (445, 14), (446, 15), (447, 16), (459, 2), (460, 4), (461, 5),
   (462, 6), (463, 7), (464, 8), (465, 10), (466, 11), (467, 12), (468, 13), (469, 14), (470, 15), (482, 1), (483, 3), (484, 4),
   (485, 5), (486, 6), (487, 7), (488, 8), (489, 9), (490, 10), (491, 11), (492, 13), (493, 14), (505, 0), (506, 2), (507, 3), (508, 4),
   (509, 5), (510, 6), (511, 7), (512, 8), (513, 9), (514, 10), (515, 12), (516, 13), (528, -1), (529, 0), (530, 1), (531, 2), (532, 3),
   (533, 4), (534, 6), (535, 7), (536, 8), (537, 9), (538, 10), (539, 12), (540, 11), (541, 12), (553, -1), (554, 0), (555, 1), (556, 2),
   (557, 3), (558, 4), (559, 6), (560, 7), (561, 8), (562, 9), (563, 10), (564, 11), (578, -1), (579, 0), (580, 1), (581, 2), (582, 3),
   (583, 4), (584, 6), (585, 7), (586, 10), (587, 9), (588, 10), (603, -1), (604, 0), (605, 1), (606, 2), (607, 4), (608, 5), (609, 8),
   (610, 6), (611, 7), (612, 8), (613, 9), (628, -1), (629, 0), (630, 1), (631, 2), (632, 6), (633, 4), (634, 6), (635, 6), (636, 7),
   (653, -1), (654, 0), (655, 3), (656, 2), (657, 4), (658, 5), (659, 6), (660, 7), (678, -1), (679, 0), (680, 1), (681, 2), (682, 4),
   (683, 5), (684, 6), (703, -1), (704, 1), (705, 2), (706, 3), (707, 4), (708, 5), (728, -1), (729, 1), (730, 2), (731, 3), (732, 4),
   (733, 4), (753, -1), (754, 1), (755, 2), (756, 2), (757, 3), (778, -1), (779, 0), (780, 1), (803, -1), (828, -1), (853, -1),
   (878, -1), (903, -1), (928, -1), (953, -1), (978, -1), (1003, -1), (1028, -1), (1053, -1), (1078, -1)]

def nue64 : Fkp := written [
  (22, 21), (45, 20), (68, 19), (91, 18), (114, 17), (137, 16), (160, 15), (183, 14), (206, 13), (229, 12), (252, 11), (275, 10),
   (298, 9), (321, 8), (322, 13), (323, 14), (344, 7), (345, 9), (346, 10), (347, 13), (348, 14), (367, 6), (368, 7), (369, 9),
   (370, 10), (371, 14), (372, 14), (373, 16), (390, 5), (391, 6), (392, 7), (393, 8), (394, 13), (395, 14), (396, 15), (397, 15),
   (398, 16), (408, -22), (409, -21), (410, -20), (411, -19), (412, -18), (413, 4), (414, 5), (415, 6), (416, 7), (417, 8), (418, 9),
   (419, 14), (420, 15), (421, 17), (422, 16), (423, 17), (432, -22), (433, -21), (434, -20), (435, -19), (436, 3), (437, 4), (438, 5),
   (439, 6), (440, 7), (441, 8), (442, 9), (443, 10), (444, 14), (445, 14), (446, 15), (447, 16), (459, 2), (460, 3), (461, 4), (462, 5),
   (463, 6), (464, 7), (465, 8), (466, 9), (467, 10), (468, 11), (469, 14), (470, 15), (482, 1), (483, 3), (484, 3), (485, 4), (486, 5),
   (487, 6), (488, 7), (489, 8), (490, 9), (491, 10), (492, 11), (493, 12), (504, -22), (505, 0), (506, 1), (507, 3), (508, 4), (509, 4),
   (510, 5), (511, 7), (512, 7), (513, 8), (514, 9), (515, 10), (516, 11), (517, 12), (518, 13), (528, -1), (529, 0), (530, 2), (531, 3),
   (532, 4), (533, 5), (534, 6), (535, 7), (536, 8), (537, 8), (538, 9), (539, 10), (540, 11), (541, 12), (553, -1), (554, 0), (555, 2),
   (556, 3), (557, 4), (558, 5), (559, 6), (560, 7), (561, 8), (562, 9), (563, 10), (564, 11), (578, -1), (579, 0), (580, 2), (581, 3),
   (582, 4), (583, 5), (584, 6), (585, 7), (586, 8), (587, 9), (588, 10), (603, -1), (604, 0), (605, 2), (606, 3), (607, 4), (608, 5),
   (609, 6), (610, 7), (611, 8), (612, 8), (613, 9), (628, -1), (629, 0), (630, 2), (631, 3), (632, 4), (633, 5), (634, 6), (635, 7),
   (636, 8), (653, -1), (654, 0), (655, 2), (656, 3), (657, 4), (658, 5), (659, 6), (660, 7), (678, -1), (679, 0), (680, 2), (681, 3),
   (682, 5), (683, 6), (684, 6), (703, -1), (704, 0), (705, 2), (706, 3), (707, 4), (708, 5), (728, -1), (729, 0), (730, 2), (731, 4),
   (732, 4), (733, 4), (753, -1), (754, 1), (755, 2), (756, 2), (757, 3), (778, -1), (779, 0), (780, 1), (803, -1), (828, -1), (853, -1),
   (878, -1), (903, -1), (928, -1), (953, -1), (978, -1), (1003, -1), (1028, -1), (1053, -1), (1078, -1)]

def nue80 : Fkp := written [
  (22, 21), (45, 20), (68, 19), (91, 18), (114, 17), (137, 16), (160, 15), (183, 14), (206, 13), (229, 12), (252, 11), (275, 10),
   (298, 9), (321, 8), (322, 13), (323, 14), (344, 7), (345, 9), (346, 10), (347, 13), (348, 14), (367, 6), (368, 8), (369, 11),
   (370, 10), (371, 14), (372, 14), (373, 16), (390, 5), (391, 7), (392, 10), (393, 11), (394, 12), (395, 14), (396, 15), (397, 15),
   (398, 16), (408, -22), (409, -21), (410, -20), (411, -19), (412, -18), (413, 4), (414, 5), (415, 6), (416, 10), (417, 11), (418, 12),
   (419, 14), (420, 15), (421, 17), (422, 16), (423, 17), (432, -22), (433, -21), (434, -20), (435, -19), (436, 3), (437, 4), (438, 5),
   (439, 6), (440, 7), (441, 11), (442, 13), (443, 14), (444, 15), (445, 14), (446, 15), (447, 16), (456, -22), (457, -21), (458, -20),
   (459, 2), (460, 3), (461, 4), (462, 5), (463, 7), (464, 8), (465, 9), (466, 12), (467, 13), (468, 14), (469, 15), (470, 15), (482, 1),
   (483, 2), (484, 3), (485, 4), (486, 6), (487, 7), (488, 8), (489, 9), (490, 11), (491, 12), (492, 13), (493, 12), (504, -22),
   (505, 0), (506, 1), (507, 2), (508, 3), (509, 5), (510, 6), (511, 7), (512, 8), (513, 9), (514, 9), (515, 11), (516, 11), (517, 12),
   (518, 13), (528, -1), (529, 0), (530, 1), (531, 2), (532, 3), (533, 5), (534, 6), (535, 7), (536, 8), (537, 8), (538, 9), (539, 10),
   (540, 11), (541, 12), (553, -1), (554, 0), (555, 1), (556, 2), (557, 4), (558, 5), (559, 6), (560, 8), (561, 9), (562, 8), (563, 11),
   (564, 10), (565, 11), (578, -1), (579, 0), (580, 1), (581, 2), (582, 4), (583, 5), (584, 6), (585, 8), (586, 9), (587, 9), (588, 10),
   (603, -1), (604, 0), (605, 1), (606, 2), (607, 4), (608, 5), (609, 6), (610, 8), (611, 9), (612, 9), (613, 9), (628, -1), (629, 0),
   (630, 1), (631, 2), (632, 4), (633, 5), (634, 6), (635, 7), (636, 8), (653, -1), (654, 0), (655, 1), (656, 2), (657, 4), (658, 7),
   (659, 5), (660, 7), (678, -1), (679, 0), (680, 1), (681, 4), (682, 5), (683, 4), (684, 5), (703, -1), (704, 0), (705, 3), (706, 4),
   (707, 5), (708, 4), (709, 5), (728, -1), (729, 0), (730, 3), (731, 3), (732, 4), (733, 4), (753, -1), (754, 0), (755, 1), (756, 2),
   (757, 3), (778, -1), (779, 0), (780, 1), (803, -1), (828, -1), (853, -1), (878, -1), (903, -1), (928, -1), (953, -1), (978, -1),
   (1003, -1), (1028, -1), (1053, -1), (1078, -1)]

def nue96 : Fkp := written [
  (22, 21), (45, 20), (68, 19), (91, 18), (114, 17), (137, 16), (160, 15), (183, 14), (206, 13), (229, 12), (252, 11), (275, 10),
   (298, 9), (321, 8), (322, 9), (323, 10), (344, 7), (345, 8), (346, 9), (347, 12), (348, 13), (367, 6), (368, 8), (369, 9), (370, 10),
   (371, 11), (372, 12), (373, 13), (390, 5), (391, 7), (392, 8), (393, 10), (394, 11), (395, 11), (396, 12), (397, 13), (398, 15),
   (408, -22), (409, -21), (410, -20), (411, -19), (412, -18), (413, 4), (414, 5), (415, 6), (416, 7), (417, 8), (418, 10), (419, 11),
   (420, 12), (421, 14), (422, 15), (423, 15), (432, -22), (433, -21), (434, -20), (435, -19), (436, 3), (437, 4), (438, 5), (439, 6),
   (440, 7), (441, 8), (442, 9), (443, 10), (444, 11), (445, 14), (446, 15), (447, 16), (448, 16), (456, -22), (457, -21), (458, -20),
   (459, 2), (460, 3), (461, 4), (462, 5), (463, 6), (464, 7), (465, 8), (466, 9), (467, 10), (468, 12), (469, 13), (470, 15), (471, 15),
   (480, -22), (481, -21), (482, 1), (483, 2), (484, 3), (485, 4), (486, 6), (487, 7), (488, 7), (489, 8), (490, 9), (491, 11),
   (492, 12), (493, 13), (494, 14), (504, -22), (505, 0), (506, 1), (507, 2), (508, 3), (509, 5), (510, 6), (511, 7), (512, 8), (513, 8),
   (514, 10), (515, 11), (516, 12), (517, 13), (518, 13), (528, -1), (529, 0), (530, 1), (531, 2), (532, 3), (533, 4), (534, 5),
   (535, 6), (536, 7), (537, 8), (538, 10), (539, 11), (540, 12), (541, 12), (553, -1), (554, 0), (555, 1), (556, 2), (557, 3), (558, 4),
   (559, 5), (560, 6), (561, 8), (562, 9), (563, 10), (564, 10), (565, 11), (578, -1), (579, 0), (580, 1), (581, 2), (582, 3), (583, 4),
   (584, 5), (585, 6), (586, 8), (587, 9), (588, 9), (603, -1), (604, 0), (605, 1), (606, 2), (607, 3), (608, 4), (609, 5), (610, 6),
   (611, 8), (612, 9), (613, 9), (628, -1), (629, 0), (630, 1), (631, 2), (632, 3), (633, 4), (634, 5), (635, 6), (636, 8), (653, -1),
   (654, 0), (655, 1), (656, 2), (657, 3), (658, 4), (659, 7), (660, 7), (678, -1), (679, 0), (680, 1), (681, 2), (682, 6), (683, 5),
   (684, 5), (703, -1), (704, 1), (705, 2), (706, 3), (707, 4), (708, 5), (709, 5), (728, -1), (729, 0), (730, 1), (731, 3), (732, 4),
   (733, 4), (753, -1), (754, 0), (755, 1), (756, 2), (757, 3), (778, -1), (779, 0), (780, 1), (803, -1), (828, -1), (853, -1),
   (878, -1), (903, -1), (928, -1), (953, -1), (978, -1), (1003, -1), (1028, -1), (1053, -1), (1078, -1)]

def nue112 : Fkp := written [
  (22, 21), (45, 20), (68, 19), (91, 18), (114, 17), (137, 16), (160, 15), (183, 14), (206, 13), (229, 12), (252, 11), (275, 10),
   (298, 9), (321, 8), (322, 9), (323, 10), (344, 7), (345, 8), (346, 9), (347, 12), (348, 13), (367, 6), (368, 7), (369, 9), (370, 10),
   (371, 11), (372, 12), (373, 13), (390, 5), (391, 6), (392, 7), (393, 10), (394, 11), (395, 11), (396, 12), (397, 13), (398, 15),
   (408, -22), (409, -21), (410, -20), (411, -19), (412, -18), (413, 4), (414, 6), (415, 7), (416, 9), (417, 11), (418, 12), (419, 11),
   (420, 12), (421, 14), (422, 15), (423, 15), (432, -22), (433, -21), (434, -20), (435, -19), (436, 3), (437, 4), (438, 6), (439, 7),
   (440, 8), (441, 11), (442, 13), (443, 14), (444, 11), (445, 14), (446, 15), (447, 16), (448, 16), (456, -22), (457, -21), (458, -20),
   (459, 2), (460, 3), (461, 4), (462, 5), (463, 7), (464, 8), (465, 9), (466, 12), (467, 13), (468, 14), (469, 13), (470, 15),
   (471, 15), (480, -22), (481, -21), (482, 1), (483, 2), (484, 3), (485, 4), (486, 6), (487, 7), (488, 8), (489, 9), (490, 10),
   (491, 12), (492, 13), (493, 14), (494, 14), (504, -22), (505, 0), (506, 1), (507, 2), (508, 3), (509, 5), (510, 6), (511, 7),
   (512, 8), (513, 9), (514, 10), (515, 11), (516, 12), (517, 13), (518, 13), (528, -1), (529, 0), (530, 1), (531, 2), (532, 3),
   (533, 4), (534, 5), (535, 6), (536, 7), (537, 8), (538, 9), (539, 10), (540, 11), (541, 12), (553, -1), (554, 0), (555, 1), (556, 2),
   (557, 3), (558, 4), (559, 5), (560, 6), (561, 7), (562, 8), (563, 9), (564, 10), (565, 11), (578, -1), (579, 0), (580, 1), (581, 2),
   (582, 3), (583, 4), (584, 5), (585, 6), (586, 7), (587, 8), (588, 9), (603, -1), (604, 0), (605, 1), (606, 2), (607, 3), (608, 4),
   (609, 5), (610, 6), (611, 7), (612, 8), (613, 9), (628, -1), (629, 0), (630, 1), (631, 2), (632, 3), (633, 4), (634, 5), (635, 6),
   (636, 7), (637, 8), (653, -1), (654, 0), (655, 1), (656, 2), (657, 3), (658, 4), (659, 5), (660, 6), (678, -1), (679, 0), (680, 1),
   (681, 2), (682, 3), (683, 4), (684, 6), (703, -1), (704, 1), (705, 2), (706, 3), (707, 4), (708, 5), (709, 5), (728, -1), (729, 1),
   (730, 2), (731, 3), (732, 4), (733, 4), (753, -1), (754, 0), (755, 1), (756, 2), (757, 3), (778, -1), (779, 0), (780, 1), (803, -1),
   (828, -1), (853, -1), (878, -1), (903, -1), (928, -1), (953, -1), (978, -1), (1003, -1), (1028, -1), (1053, -1), (1078, -1)]

def nue128 : Fkp := written [
  (22, 21), (45, 20), (68, 19), (91, 18), (114, 17), (137, 16), (160, 15), (183, 14), (206, 13), (229, 12), (252, 11), (275, 10),
   (298, 9), (321, 8), (322, 9), (323, 10), (344, 7), (345, 8), (346, 9), (347, 12), (348, 13), (367, 6), (368, 7), (369, 9), (370, 10),
   (371, 11), (372, 12), (373, 13), (390, 5), (391, 6), (392, 7), (393, 10), (394, 11), (395, 11), (396, 12), (397, 13), (398, 15),
   (408, -22), (409, -21), (410, -20), (411, -19), (412, -18), (413, 4), (414, 5), (415, 6), (416, 9), (417, 11), (418, 12), (419, 11),
   (420, 12), (421, 14), (422, 15), (423, 15), (432, -22), (433, -21), (434, -20), (435, -19), (436, 3), (437, 4), (438, 6), (439, 8),
   (440, 8), (441, 10), (442, 13), (443, 14), (444, 11), (445, 14), (446, 15), (447, 16), (448, 16), (456, -22), (457, -21), (458, -20),
   (459, 2), (460, 3), (461, 5), (462, 7), (463, 8), (464, 9), (465, 8), (466, 11), (467, 13), (468, 14), (469, 13), (470, 15),
   (471, 15), (480, -22), (481, -21), (482, 1), (483, 2), (484, 4), (485, 6), (486, 7), (487, 8), (488, 10), (489, 11), (490, 10),
   (491, 12), (492, 13), (493, 14), (494, 14), (504, -22), (505, 0), (506, 1), (507, 3), (508, 5), (509, 6), (510, 7), (511, 8),
   (512, 9), (513, 10), (514, 11), (515, 12), (516, 12), (517, 13), (518, 13), (528, -1), (529, 0), (530, 1), (531, 2), (532, 3),
   (533, 5), (534, 6), (535, 7), (536, 8), (537, 9), (538, 10), (539, 11), (540, 12), (541, 12), (553, -1), (554, 0), (555, 1), (556, 2),
   (557, 3), (558, 5), (559, 6), (560, 7), (561, 8), (562, 9), (563, 10), (564, 11), (565, 11), (578, -1), (579, 0), (580, 1), (581, 2),
   (582, 3), (583, 5), (584, 6), (585, 7), (586, 8), (587, 9), (588, 10), (603, -1), (604, 0), (605, 1), (606, 3), (607, 4), (608, 5),
   (609, 6), (610, 7), (611, 9), (612, 8), (613, 9), (628, -1), (629, 1), (630, 2), (631, 3), (632, 4), (633, 5), (634, 8), (635, 8),
   (636, 7), (637, 8), (653, -1), (654, 1), (655, 2), (656, 3), (657, 3), (658, 5), (659, 5), (660, 6), (678, -1), (679, 1), (680, 1),
   (681, 2), (682, 3), (683, 4), (684, 5), (685, 6), (703, -1), (704, 0), (705, 1), (706, 2), (707, 3), (708, 5), (709, 5), (728, -1),
   (729, 0), (730, 1), (731, 2), (732, 3), (733, 4), (753, -1), (754, 0), (755, 1), (756, 2), (757, 3), (778, -1), (779, 0), (780, 1),
   (803, -1), (828, -1), (853, -1), (878, -1), (903, -1), (928, -1), (953, -1), (978, -1), (1003, -1), (1028, -1), (1053, -1), (1078, -1)]

def nue144 : Fkp := written [
  (22, 21), (45, 20), (68, 19), (91, 18), (114, 17), (137, 16), (160, 15), (183, 14), (206, 13), (207, 15), (229, 12), (230, 14),
   (231, 17), (232, 18), (252, 11), (253, 13), (254, 16), (255, 17), (256, 19), (257, 20), (275, 10), (276, 12), (277, 15), (278, 16),
   (279, 17), (280, 19), (281, 20), (282, 21), (288, -22), (289, -21), (290, -20), (291, -19), (292, -18), (293, -17), (294, -16),
   (295, -15), (296, -14), (297, -13), (298, 9), (299, 11), (300, 14), (301, 15), (302, 16), (303, 18), (304, 19), (305, 20), (306, 21),
   (307, 22), (312, -22), (313, -21), (314, -20), (315, -19), (316, -18), (317, -17), (318, -16), (319, -15), (320, -14), (321, 8),
   (322, 10), (323, 13), (324, 14), (325, 15), (326, 16), (327, 17), (328, 19), (329, 20), (330, 21), (331, 20), (332, 21), (344, 7),
   (345, 9), (346, 11), (347, 12), (348, 13), (349, 14), (350, 15), (351, 18), (352, 19), (353, 20), (354, 19), (355, 20), (367, 6),
   (368, 7), (369, 8), (370, 9), (371, 12), (372, 13), (373, 14), (374, 17), (375, 18), (376, 19), (377, 18), (378, 19), (390, 5),
   (391, 6), (392, 7), (393, 8), (394, 10), (395, 11), (396, 13), (397, 16), (398, 17), (399, 18), (400, 16), (401, 17), (408, -22),
   (409, -21), (410, -20), (411, -19), (412, -18), (413, 4), (414, 5), (415, 6), (416, 7), (417, 8), (418, 9), (419, 10), (420, 11),
   (421, 16), (422, 17), (423, 14), (424, 15), (432, -22), (433, -21), (434, -20), (435, -19), (436, 3), (437, 4), (438, 5), (439, 6),
   (440, 7), (441, 8), (442, 9), (443, 10), (444, 11), (445, 13), (446, 13), (447, 14), (448, 16), (456, -22), (457, -21), (458, -20),
   (459, 2), (460, 3), (461, 4), (462, 5), (463, 6), (464, 7), (465, 8), (466, 9), (467, 10), (468, 11), (469, 12), (470, 13), (471, 15),
   (480, -22), (481, -21), (482, 1), (483, 2), (484, 3), (485, 5), (486, 6), (487, 6), (488, 7), (489, 8), (490, 9), (491, 10),
   (492, 11), (493, 12), (494, 13), (495, 14), (504, -22), (505, 0), (506, 1), (507, 2), (508, 3), (509, 5), (510, 7), (511, 8),
   (512, 7), (513, 8), (514, 9), (515, 10), (516, 11), (517, 12), (518, 13), (528, -1), (529, 0), (530, 1), (531, 2), (532, 3), (533, 4),
   (534, 5), (535, 7), (536, 8), (537, 8), (538, 9), (539, 10), (540, 11), (541, 12), (553, -1), (554, 0), (555, 1), (556, 2), (557, 3),
   (558, 4), (559, 6), (560, 7), (561, 8), (562, 9), (563, 10), (564, 11), (565, 11), (578, -1), (579, 0), (580, 1), (581, 2), (582, 3),
   (583, 4), (584, 6), (585, 7), (586, 8), (587, 9), (588, 9), (589, 10), (603, -1), (604, 0), (605, 1), (606, 2), (607, 3), (608, 4),
   (609, 6), (610, 7), (611, 8), (612, 9), (613, 9), (628, -1), (629, 0), (630, 1), (631, 2), (632, 4), (633, 5), (634, 6), (635, 7),
   (636, 8), (637, 8), (653, -1), (654, 0), (655, 1), (656, 2), (657, 4), (658, 5), (659, 6), (660, 7), (678, -1), (679, 0), (680, 1),
   (681, 2), (682, 4), (683, 5), (684, 6), (685, 6), (703, -1), (704, 1), (705, 2), (706, 3), (707, 4), (708, 5), (709, 5), (728, -1),
   (729, 1), (730, 3), (731, 4), (732, 3), (733, 4), (753, -1), (754, 1), (755, 1), (756, 2), (757, 3), (778, -1), (779, 0), (780, 1),
   (803, -1), (828, -1), (853, -1), (878, -1), (903, -1), (928, -1), (953, -1), (978, -1), (1003, -1), (1028, -1), (1053, -1), (1078, -1)]

def nue160 : Fkp := written [
  (22, 21), (45, 20), (68, 19), (91, 18), (114, 17), (137, 16), (160, 15), (183, 14), (206, 13), (207, 15), (229, 12), (230, 14),
   (231, 17), (232, 18), (252, 11), (253, 13), (254, 16), (255, 17), (256, 19), (257, 20), (275, 10), (276, 12), (277, 15), (278, 16),
   (279, 17), (280, 19), (281, 20), (282, 21), (288, -22), (289, -21), (290, -20), (291, -19), (292, -18), (293, -17), (294, -16),
   (295, -15), (296, -14), (297, -13), (298, 9), (299, 11), (300, 14), (301, 15), (302, 16), (303, 18), (304, 19), (305, 20), (306, 21),
   (307, 22), (312, -22), (313, -21), (314, -20), (315, -19), (316, -18), (317, -17), (318, -16), (319, -15), (320, -14), (321, 8),
   (322, 10), (323, 13), (324, 14), (325, 15), (326, 16), (327, 17), (328, 19), (329, 20), (330, 21), (331, 20), (332, 21), (344, 7),
   (345, 9), (346, 11), (347, 12), (348, 13), (349, 14), (350, 15), (351, 18), (352, 19), (353, 20), (354, 19), (355, 20), (367, 6),
   (368, 7), (369, 8), (370, 9), (371, 12), (372, 13), (373, 14), (374, 17), (375, 18), (376, 19), (377, 18), (378, 19), (390, 5),
   (391, 6), (392, 7), (393, 8), (394, 10), (395, 11), (396, 13), (397, 16), (398, 17), (399, 18), (400, 16), (401, 17), (408, -22),
   (409, -21), (410, -20), (411, -19), (412, -18), (413, 4), (414, 5), (415, 6), (416, 7), (417, 8), (418, 9), (419, 10), (420, 11),
   (421, 16), (422, 17), (423, 14), (424, 15), (432, -22), (433, -21), (434, -20), (435, -19), (436, 3), (437, 5), (438, 5), (439, 6),
   (440, 8), (441, 8), (442, 9), (443, 10), (444, 11), (445, 13), (446, 13), (447, 14), (448, 16), (456, -22), (457, -21), (458, -20),
   (459, 2), (460, 3), (461, 6), (462, 7), (463, 7), (464, 8), (465, 10), (466, 9), (467, 10), (468, 11), (469, 12), (470, 13),
   (471, 15), (480, -22), (481, -21), (482, 1), (483, 2), (484, 3), (485, 5), (486, 6), (487, 7), (488, 7), (489, 8), (490, 10),
   (491, 10), (492, 11), (493, 12), (494, 13), (495, 14), (504, -22), (505, 0), (506, 1), (507, 2), (508, 4), (509, 5), (510, 6),
   (511, 6), (512, 7), (513, 8), (514, 9), (515, 10), (516, 11), (517, 12), (518, 13), (528, -1), (529, 0), (530, 1), (531, 3), (532, 4),
   (533, 5), (534, 6), (535, 6), (536, 7), (537, 8), (538, 9), (539, 10), (540, 12), (541, 12), (553, -1), (554, 0), (555, 1), (556, 3),
   (557, 4), (558, 5), (559, 6), (560, 8), (561, 7), (562, 8), (563, 9), (564, 11), (565, 11), (578, -1), (579, 1), (580, 2), (581, 3),
   (582, 5), (583, 6), (584, 7), (585, 8), (586, 8), (587, 9), (588, 9), (589, 10), (603, -1), (604, 1), (605, 2), (606, 3), (607, 5),
   (608, 6), (609, 7), (610, 8), (611, 8), (612, 9), (613, 9), (628, -1), (629, 1), (630, 2), (631, 3), (632, 5), (633, 6), (634, 7),
   (635, 8), (636, 8), (637, 8), (653, -1), (654, 1), (655, 2), (656, 4), (657, 5), (658, 6), (659, 7), (660, 6), (661, 7), (678, -1),
   (679, 1), (680, 2), (681, 4), (682, 5), (683, 4), (684, 5), (685, 6), (703, -1), (704, 1), (705, 2), (706, 3), (707, 3), (708, 4),
   (709, 5), (728, -1), (729, 1), (730, 2), (731, 3), (732, 3), (733, 4), (753, -1), (754, 1), (755, 2), (756, 3), (757, 3), (778, -1),
   (779, 1), (780, 1), (803, -1), (828, -1), (853, -1), (878, -1), (903, -1), (928, -1), (953, -1), (978, -1), (1003, -1), (1028, -1),
   (1053, -1), (1078, -1)]

def nue176 : Fkp := written [
  (22, 21), (45, 20), (68, 19), (91, 18), (114, 17), (137, 16), (160, 15), (183, 14), (206, 13), (207, 15), (229, 12), (230, 14),
   (231, 17), (232, 18), (252, 11), (253, 13), (254, 16), (255, 17), (256, 19), (257, 20), (275, 10), (276, 12), (277, 15), (278, 16),
   (279, 17), (280, 19), (281, 20), (282, 21), (288, -22), (289, -21), (290, -20), (291, -19), (292, -18), (293, -17), (294, -16),
   (295, -15), (296, -14), (297, -13), (298, 9), (299, 11), (300, 14), (301, 15), (302, 16), (303, 18), (304, 19), (305, 20), (306, 21),
   (307, 22), (312, -22), (313, -21), (314, -20), (315, -19), (316, -18), (317, -17), (318, -16), (319, -15), (320, -14), (321, 8),
   (322, 10), (323, 13), (324, 14), (325, 15), (326, 16), (327, 17), (328, 19), (329, 20), (330, 21), (331, 20), (332, 21), (344, 7),
   (345, 9), (346, 11), (347, 12), (348, 13), (349, 14), (350, 15), (351, 18), (352, 19), (353, 20), (354, 19), (355, 20), (367, 6),
   (368, 7), (369, 8), (370, 9), (371, 12), (372, 13), (373, 14), (374, 17), (375, 18), (376, 19), (377, 18), (378, 19), (390, 5),
   (391, 8), (392, 9), (393, 8), (394, 10), (395, 11), (396, 13), (397, 16), (398, 17), (399, 18), (400, 16), (401, 17), (408, -22),
   (409, -21), (410, -20), (411, -19), (412, -18), (413, 4), (414, 6), (415, 8), (416, 9), (417, 10), (418, 9), (419, 10), (420, 11),
   (421, 16), (422, 17), (423, 14), (424, 15), (432, -22), (433, -21), (434, -20), (435, -19), (436, 3), (437, 4), (438, 6), (439, 8),
   (440, 9), (441, 10), (442, 11), (443, 10), (444, 11), (445, 13), (446, 13), (447, 14), (448, 16), (456, -22), (457, -21), (458, -20),
   (459, 2), (460, 3), (461, 4), (462, 5), (463, 8), (464, 10), (465, 10), (466, 11), (467, 13), (468, 11), (469, 12), (470, 13),
   (471, 15), (480, -22), (481, -21), (482, 1), (483, 2), (484, 3), (485, 4), (486, 5), (487, 6), (488, 9), (489, 10), (490, 11),
   (491, 12), (492, 13), (493, 12), (494, 13), (495, 14), (504, -22), (505, 0), (506, 1), (507, 2), (508, 3), (509, 4), (510, 5),
   (511, 7), (512, 8), (513, 10), (514, 11), (515, 11), (516, 12), (517, 13), (518, 13), (528, -1), (529, 0), (530, 1), (531, 2),
   (532, 3), (533, 4), (534, 5), (535, 6), (536, 7), (537, 8), (538, 11), (539, 12), (540, 12), (541, 12), (553, -1), (554, 0), (555, 1),
   (556, 2), (557, 3), (558, 4), (559, 5), (560, 6), (561, 7), (562, 8), (563, 11), (564, 11), (565, 11), (578, -1), (579, 0), (580, 1),
   (581, 2), (582, 3), (583, 4), (584, 5), (585, 6), (586, 7), (587, 8), (588, 9), (589, 10), (603, -1), (604, 0), (605, 1), (606, 2),
   (607, 4), (608, 5), (609, 6), (610, 7), (611, 8), (612, 9), (613, 9), (628, -1), (629, 0), (630, 1), (631, 2), (632, 4), (633, 5),
   (634, 6), (635, 7), (636, 8), (637, 8), (653, -1), (654, 0), (655, 1), (656, 3), (657, 4), (658, 5), (659, 6), (660, 6), (661, 7),
   (678, -1), (679, 0), (680, 1), (681, 3), (682, 4), (683, 5), (684, 6), (685, 6), (703, -1), (704, 0), (705, 1), (706, 3), (707, 4),
   (708, 4), (709, 5), (728, -1), (729, 0), (730, 1), (731, 3), (732, 3), (733, 4), (753, -1), (754, 0), (755, 2), (756, 3), (757, 3),
   (778, -1), (779, 0), (780, 1), (803, -1), (828, -1), (853, -1), (878, -1), (903, -1), (928, -1), (953, -1), (978, -1), (1003, -1),
   (1028, -1), (1053, -1), (1078, -1)]

theorem nue_init : initFkp nue = .ok nue0 := by
  have h : (match initFkp nue with | .ok F => sameFkp F nue0 | _ => false) = true := by decide +kernel
  split at h
  · rename_i e
    rw [e, sameFkp_eq h]
  · cases h

set_option maxRecDepth 100000 in
theorem nue_run0 : bestF nue ((keys.drop 0).take 16) 0 22 none nue0 = .ok (9, some 4, nue16) :=
  runsTo_eq (by decide +kernel)

set_option maxRecDepth 100000 in
theorem nue_run16 : bestF nue ((keys.drop 16).take 16) 16 9 (some 4) nue16 = .ok (8, some 19, nue32) :=
  runsTo_eq (by decide +kernel)

set_option maxRecDepth 100000 in
theorem nue_run32 : bestF nue ((keys.drop 32).take 16) 32 8 (some 19) nue32 = .ok (8, some 19, nue48) :=
  runsTo_eq (by decide +kernel)

set_option maxRecDepth 100000 in
theorem nue_run48 : bestF nue ((keys.drop 48).take 16) 48 8 (some 19) nue48 = .ok (8, some 19, nue64) :=
  runsTo_eq (by decide +kernel)

set_option maxRecDepth 100000 in
theorem nue_run64 : bestF nue ((keys.drop 64).take 16) 64 8 (some 19) nue64 = .ok (8, some 19, nue80) :=
  runsTo_eq (by decide +kernel)

set_option maxRecDepth 100000 in
theorem nue_run80 : bestF nue ((keys.drop 80).take 16) 80 8 (some 19) nue80 = .ok (8, some 19, nue96) :=
  runsTo_eq (by decide +kernel)

set_option maxRecDepth 100000 in
theorem nue_run96 : bestF nue ((keys.drop 96).take 16) 96 8 (some 19) nue96 = .ok (8, some 19, nue112) :=
  runsTo_eq (by decide +kernel)

set_option maxRecDepth 100000 in
theorem nue_run112 : bestF nue ((keys.drop 112).take 16) 112 8 (some 19) nue112 = .ok (8, some 19, nue128) :=
  runsTo_eq (by decide +kernel)

set_option maxRecDepth 100000 in
theorem nue_run128 : bestF nue ((keys.drop 128).take 16) 128 8 (some 19) nue128 = .ok (8, some 19, nue144) :=
  runsTo_eq (by decide +kernel)

set_option maxRecDepth 100000 in
theorem nue_run144 : bestF nue ((keys.drop 144).take 16) 144 8 (some 19) nue144 = .ok (8, some 19, nue160) :=
  runsTo_eq (by decide +kernel)

set_option maxRecDepth 100000 in
theorem nue_run160 : bestF nue ((keys.drop 160).take 16) 160 8 (some 19) nue160 = .ok (8, some 19, nue176) :=
  runsTo_eq (by decide +kernel)

set_option maxRecDepth 100000 in
theorem nue_run176 : bestOf nue (keys.drop 176) 176 8 (some 19) nue176 = .ok (8, some 19) := by decide +kernel

theorem nue_step {i l : Nat} {b : Option Nat} {F : Fkp} {l' : Nat} {b' : Option Nat} {F' : Fkp} (hi : i + 16 ≤ keys.length)
    (h : bestF nue ((keys.drop i).take 16) i l b F = .ok (l', b', F')) :
    bestOf nue (keys.drop i) i l b F = bestOf nue (keys.drop (i + 16)) (i + 16) l' b' F' := by
  have := bestOf_append nue ((keys.drop i).take 16) ((keys.drop i).drop 16) i l b F l' b' F' h
  rw [List.take_append_drop, List.drop_drop] at this
  rw [this]
  congr 1
  simp
  omega

theorem keys_length : keys.length = 192 := by decide +kernel

theorem nue_bestOf : bestOf nue keys 0 22 none nue0 = .ok (8, some 19) := by
  have h0 : bestOf nue (keys.drop 0) 0 22 none nue0 = .ok (8, some 19) := by
    rw [nue_step (by rw [keys_length]; omega) nue_run0, nue_step (by rw [keys_length]; omega) nue_run16, nue_step (by rw [keys_length]; omega) nue_run32, nue_step (by rw [keys_length]; omega) nue_run48, nue_step (by rw [keys_length]; omega) nue_run64, nue_step (by rw [keys_length]; omega) nue_run80, nue_step (by rw [keys_length]; omega) nue_run96, nue_step (by rw [keys_length]; omega) nue_run112, nue_step (by rw [keys_length]; omega) nue_run128, nue_step (by rw [keys_length]; omega) nue_run144, nue_step (by rw [keys_length]; omega) nue_run160, nue_run176]
  exact h0

end Scribbu.Props
