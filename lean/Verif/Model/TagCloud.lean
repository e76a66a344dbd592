import Verif.Model.Url
import Verif.Model.Unsync

/-! # Tag clouds (scribbu/framesv2.hh L973-1103, scribbu/framesv2.cc L1261-1560)

`std::string` is a byte list. `std::set<std::string>` is the list of its elements in
iteration order and `std::map<std::string, std::set<std::string>>` the list of its
entries in iteration order. -/

namespace Scribbu

/-- `operator<` on `std::string` (lexicographic; `char_traits<char>::lt` compares as
`unsigned char`). -/
def strLt : Bytes → Bytes → Bool
  | [], [] => false
  | [], _ :: _ => true
  | _ :: _, [] => false
  | a :: as, b :: bs => if a < b then true else if a = b then strLt as bs else false

/-- `std::set<std::string>::insert(v)`. -/
def setInsert (v : Bytes) : List Bytes → List Bytes
  | [] => [v]
  | w :: ws => if v = w then w :: ws else if strLt v w then v :: w :: ws else w :: setInsert v ws

/-- `tag_cloud::map_type`: scribbu/framesv2.hh L976. -/
abbrev TagMap := List (Bytes × List Bytes)

/-- Elements of a `std::set` in iteration order. -/
def SetOk (s : List Bytes) : Prop := s.Pairwise fun a b => strLt a b = true

/-- Entries of a `std::map<string, set<string>>` in iteration order. -/
def MapOk (m : TagMap) : Prop :=
  (m.Pairwise fun a b => strLt a.1 b.1 = true) ∧ ∀ e ∈ m, SetOk e.2

/-- `M.find(k)`, `M.count(k)`, `M.at(k)`. -/
def mapFind (k : Bytes) : TagMap → Option (List Bytes)
  | [] => none
  | (k', s) :: r => if k = k' then some s else mapFind k r

/-- `M[k]` (default-inserting) followed by an operation on the element. -/
def mapUpd (k : Bytes) (f : List Bytes → List Bytes) : TagMap → TagMap
  | [] => [(k, f [])]
  | (k', s) :: r =>
    if k = k' then (k', f s) :: r
    else if strLt k k' then (k, f []) :: (k', s) :: r
    else (k', s) :: mapUpd k f r

/-- Data members of `class tag_cloud`: scribbu/framesv2.hh L1099-1101. -/
structure TagCloud where
  own : Bytes
  tags : TagMap
  deriving DecidableEq, Repr

namespace TagCloud

/-- A key without values in `parse_to_map`: scribbu/framesv2.cc L1521-1526 and
L1552-1556. -/
def tokKey (token : Bytes) (M : TagMap) : Res Unit × TagMap :=
  match urldecode token with
  | .ok k => if (mapFind k M).isSome then (.throw .invalidArgument, M)
             else (.ok (), mapUpd k (fun _ => []) M)
  | .throw e => (.throw e, M)
  | .ub u => (.ub u, M)

/-- `M[key].insert(urldecode(token))`: scribbu/framesv2.cc L1533, L1536, L1558. `M[key]`
is taken to be evaluated before the argument, as C++17 requires. -/
def tokVal (key token : Bytes) (M : TagMap) : Res Unit × TagMap :=
  match urldecode token with
  | .ok v => (.ok (), mapUpd key (setInsert v) M)
  | .throw e => (.throw e, mapUpd key id M)
  | .ub u => (.ub u, mapUpd key id M)

/-- The loop of `parse_to_map` over the remaining characters, and what follows it:
scribbu/framesv2.cc L1507-1560. The map is modified in place, so it is returned even
when an exception is thrown. -/
def parseLoop : Bytes → Bool → Bytes → Bytes → TagMap → Res Unit × TagMap
  | [], pk, token, key, M => if pk then tokKey token M else tokVal key token M
  | c :: cs, true, token, key, M =>
    if c = 0x3d then
      match urldecode token with
      | .ok k => parseLoop cs false [] k M
      | .throw e => (.throw e, M)
      | .ub u => (.ub u, M)
    else if c = 0x26 then
      match tokKey token M with
      | (.ok (), M') => parseLoop cs true [] key M'
      | r => r
    else parseLoop cs true (token ++ [c]) key M
  | c :: cs, false, token, key, M =>
    if c = 0x2c then
      match tokVal key token M with
      | (.ok (), M') => parseLoop cs false [] key M'
      | r => r
    else if c = 0x26 then
      match tokVal key token M with
      | (.ok (), M') => parseLoop cs true [] [] M'
      | r => r
    else parseLoop cs false (token ++ [c]) key M

/-- `parse_to_map(text, M)`: scribbu/framesv2.cc L1499-1560. -/
def parseToMap (text : Bytes) (M : TagMap) : Res Unit × TagMap := parseLoop text true [] [] M

/-- `tag_cloud(owner, text)`: scribbu/framesv2.cc L1267-1272. -/
def ofText (own text : Bytes) : Res TagCloud :=
  match parseToMap text [] with
  | (.ok (), M) => .ok ⟨own, M⟩
  | (.throw e, _) => .throw e
  | (.ub u, _) => .ub u

/-- `has_key(key)`: scribbu/framesv2.hh L1042-1043. -/
def hasKey (t : TagCloud) (k : Bytes) : Bool := (mapFind k t.tags).isSome

/-- `has_value(key, val)`: scribbu/framesv2.cc L1275-1283. -/
def hasValue (t : TagCloud) (k v : Bytes) : Bool :=
  match mapFind k t.tags with
  | none => false
  | some s => s.contains v

/-- `add_key(key)`: scribbu/framesv2.cc L1287-1294. -/
def addKey (k : Bytes) (t : TagCloud) : Bool × TagCloud :=
  if t.hasKey k then (false, t) else (true, { t with tags := mapUpd k (fun _ => []) t.tags })

/-- `add_value(key, val)`: scribbu/framesv2.cc L1298-1314. -/
def addValue (k v : Bytes) (t : TagCloud) : Bool × TagCloud :=
  match mapFind k t.tags with
  | none => (true, { t with tags := mapUpd k (setInsert v) (mapUpd k (fun _ => []) t.tags) })
  | some s => if s.contains v then (false, t)
              else (true, { t with tags := mapUpd k (setInsert v) t.tags })

/-- One round of the loop of `merge`: scribbu/framesv2.cc L1363-1373. -/
def mergeEntry (T : TagMap) (e : Bytes × List Bytes) : TagMap :=
  if (mapFind e.1 T).isSome then mapUpd e.1 (fun s => e.2.foldl (fun s v => setInsert v s) s) T
  else mapUpd e.1 (fun _ => e.2) T

/-- `merge(text)`: scribbu/framesv2.cc L1355-1375. -/
def merge (text : Bytes) (t : TagCloud) : Res Unit × TagCloud :=
  match parseToMap text [] with
  | (.ok (), M) => (.ok (), { t with tags := M.foldl mergeEntry t.tags })
  | (r, _) => (r, t)

/-- `update(text)`: scribbu/framesv2.cc L1378-1383. -/
def update (text : Bytes) (t : TagCloud) : Res Unit × TagCloud :=
  let (r, M) := parseToMap text []
  (r, { t with tags := M })

/-- Text of the values of one key, `,`-separated: scribbu/framesv2.cc L1337-1348. -/
def encVals : List Bytes → Bytes
  | [] => []
  | [v] => urlencode v
  | v :: vs => urlencode v ++ 0x2c :: encVals vs

/-- Text of one entry: scribbu/framesv2.cc L1332-1349. -/
def encEntry (e : Bytes × List Bytes) : Bytes :=
  urlencode e.1 ++ (if e.2 = [] then [] else 0x3d :: encVals e.2)

/-- `urlencoded()`: scribbu/framesv2.cc L1317-1352. -/
def urlencoded (t : TagCloud) : Bytes :=
  let rec go : TagMap → Bytes
    | [] => []
    | [e] => encEntry e
    | e :: r => encEntry e ++ 0x26 :: go r
  go t.tags

/-- Bytes of the values of one key with their terminators. -/
def rawVals (vs : List Bytes) : Bytes := (vs.map fun v => v ++ [0]).flatten

/-- Four bytes of a `uint32_t` in network order. -/
def be32 (n : Nat) : Bytes :=
  [UInt8.ofNat (n / 2 ^ 24), UInt8.ofNat (n / 2 ^ 16), UInt8.ofNat (n / 2 ^ 8), UInt8.ofNat n]

/-- `size()`: scribbu/framesv2.cc L1388-1402. -/
def size (t : TagCloud) : Nat :=
  1 + t.own.length + 1 +
    (t.tags.map fun e => e.1.length + 1 + 4 + (e.2.map fun v => v.length + 1).sum).sum

/-- `write(os)`: scribbu/framesv2.cc L1426-1459. `nval` is a `uint32_t`. -/
def write (t : TagCloud) : Bytes :=
  [0x01] ++ t.own ++ [0] ++
    (t.tags.map fun e => e.1 ++ [0] ++
      be32 ((e.2.map fun v => v.length + 1).sum % 2 ^ 32) ++ rawVals e.2).flatten

/-- `std::find(p0, p1, 0)` on `[i, b.size())`: the bytes passed over and the index
reached. `i` past the end makes the range invalid. -/
def findNul (b : Bytes) (i : Nat) : Res (Bytes × Nat) :=
  if i ≤ b.length then
    let s := (b.drop i).takeWhile (· ≠ 0)
    .ok (s, i + s.length)
  else .ub .oobRead

/-- The `while (cb)` loop of the parsing constructor: scribbu/framesv2.hh L1020-1027.
`cb` is a `uint32_t` and wraps. Every round moves `i` on by at least one, and `i` past
the end is UB, so `b.length + 2` rounds always suffice; `none`: ran out. -/
def parseVals (b : Bytes) : Nat → Nat → Nat → List Bytes → Option (Res (List Bytes × Nat))
  | fuel, i, cb, vals =>
    if cb = 0 then some (.ok (vals, i))
    else
      match fuel with
      | 0 => none
      | fuel + 1 =>
        match findNul b i with
        | .ok (v, p) => parseVals b fuel (p + 1) ((cb + 2 ^ 32 - (v.length + 1)) % 2 ^ 32) (setInsert v vals)
        | .throw e => some (.throw e)
        | .ub u => some (.ub u)

/-- The outer loop of the parsing constructor: scribbu/framesv2.hh L1005-1031. -/
def parseEntries (b : Bytes) : Nat → Nat → TagMap → Option (Res TagMap)
  | fuel, i, M =>
    if i = b.length then some (.ok M)
    else
      match fuel with
      | 0 => none
      | fuel + 1 =>
        match findNul b i with
        | .ok (key, p) =>
          match (rd b (p + 1)).bind fun a => (rd b (p + 2)).bind fun c => (rd b (p + 3)).bind fun d =>
              (rd b (p + 4)).bind fun e =>
                .ok (a.toNat * 2 ^ 24 + c.toNat * 2 ^ 16 + d.toNat * 2 ^ 8 + e.toNat) with
          | .ok cb =>
            match parseVals b (b.length + 2) (p + 5) cb [] with
            | some (.ok (vals, i')) => parseEntries b fuel i' (mapUpd key (fun _ => vals) M)
            | some (.throw e) => some (.throw e)
            | some (.ub u) => some (.ub u)
            | none => none
          | .throw e => some (.throw e)
          | .ub u => some (.ub u)
        | .throw e => some (.throw e)
        | .ub u => some (.ub u)

/-- `tag_cloud(p0, p1)`: scribbu/framesv2.hh L991-1032. -/
def parse (b : Bytes) : Option (Res TagCloud) :=
  match findNul b 1 with
  | .ok (own, p) =>
    match parseEntries b (b.length + 1) (p + 1) [] with
    | some (.ok M) => some (.ok ⟨own, M⟩)
    | some (.throw e) => some (.throw e)
    | some (.ub u) => some (.ub u)
    | none => none
  | .throw e => some (.throw e)
  | .ub u => some (.ub u)

/-- The bytes of a `uint32_t` in host (little-endian) order, as `count_syncs(uint32_t)`
visits them: scribbu/framesv2.cc L48-68. -/
def countSyncs32 (n : Nat) (falseOnly : Bool) : Nat :=
  countSyncs falseOnly
    [UInt8.ofNat n, UInt8.ofNat (n / 2 ^ 8), UInt8.ofNat (n / 2 ^ 16), UInt8.ofNat (n / 2 ^ 24)]

/-- `count_syncs(false_only)`: scribbu/framesv2.cc L1461-1497. -/
def countSyncs (t : TagCloud) (falseOnly : Bool) : Res Nat :=
  let rec go : TagMap → Res Nat
    | [] => .ok 0
    | (k, vs) :: r =>
      let nval := (vs.map fun v => v.length + 1).sum % 2 ^ 32
      let n := Scribbu.countSyncs falseOnly k + (vs.map (Scribbu.countSyncs falseOnly)).sum +
        countSyncs32 nval falseOnly
      (if falseOnly then
        match vs with
        | [] => .ub .oobRead
        | [] :: _ => .ub .emptyContainer
        | (y :: _) :: _ => .ok (if nval % 256 = 255 ∧ isFalseSync 0xff y then 1 else 0)
       else .ok 0 : Res Nat).bind fun extra =>
      (go r).bind fun m => .ok (n + extra + m)
  (go t.tags).bind fun m => .ok (Scribbu.countSyncs falseOnly t.own + m)

end TagCloud
end Scribbu
