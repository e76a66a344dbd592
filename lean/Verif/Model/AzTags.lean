import Verif.Model.Json
import Verif.Model.Process

/-! # The example program `az-tags` (examples/az-tags/src/main.cc)

For a seller of music that puts its identifier into a comment without description: such comments are given a description. The file system is
a parameter, and so are iconv and zlib. Not modelled: the options, and what is printed. -/

namespace Scribbu
namespace AzTags
open Path FM

/-- What comments to be changed begin with: examples/az-tags/src/main.cc L102, L196. -/
def amazon : Bytes := /- Amazon.com Song ID -/ [65, 109, 97, 122, 111, 110, 46, 99, 111, 109, 32, 83, 111, 110, 103, 32, 73, 68]

/-- Their new description: examples/az-tags/src/main.cc L36, L55, L75. -/
def label : Bytes := /- amazon.com song id -/ [97, 109, 97, 122, 111, 110, 46, 99, 111, 109, 32, 115, 111, 110, 103, 32, 105, 100]

/-- `comments(ver, language::eng, txt, encoding::UTF_8, use_unicode::no, "amazon.com song id")`: examples/az-tags/src/main.cc L35, L51,
L70, with scribbu/framesv2.cc L893-958: the text is converted before the description. -/
def relabel (E : Json.Env) (v : Ver) (txt : Bytes) : Res Comm :=
  (Charset.toBytes E.lib E.mem .UTF_8 .ISO_8859_1 false .fail txt).bind fun t =>
  (Charset.toBytes E.lib E.mem .UTF_8 .ISO_8859_1 false .fail label).bind fun d =>
  .ok (Comm.make v .no (101, 110, 103) t d)

/-- The new comment for one, if it is to be changed: examples/az-tags/src/main.cc L99-106. (`E.v2` is `none`: no encoding is
given to `description` and `text`.) -/
def comment (E : Json.Env) (v : Ver) (c : Comm) : Res (Option Comm) :=
  (E.asStr v c.unicode c.desc).bind fun dsc =>
  if dsc = [] then
    (E.asStr v c.unicode c.text).bind fun txt =>
    if txt.take 18 = amazon then (relabel E v txt).bind fun c' => .ok (some c') else .ok none
  else .ok none

/-- What becomes of the contents of a frame with the identifier of comments; `bad_cast` is `other`: examples/az-tags/src/main.cc
L96-106. -/
def body (E : Json.Env) (v : Ver) : Body → Res (Option Comm)
  | .comm c => comment E v c
  | _ => .throw .other

/-- A pass of the loop over the frames of an ID3v2.2 tag: examples/az-tags/src/main.cc L94-107, L32-37. The assignment puts a copy
into the tag: scribbu/id3v22.cc L430-523. -/
def frame22 (E : Json.Env) (f : Frame22) : Res Frame22 :=
  if f.id = mkId3 'C' 'O' 'M' then
    (body E .v2 f.body).bind fun o =>
    match o with
    | some c => .ok (Frame22.new (mkId3 'C' 'O' 'M') (.comm c))
    | none => .ok f
  else .ok f

/-- Likewise for ID3v2.3 and 2.4: examples/az-tags/src/main.cc L94-107, L48-56, L67-76. -/
def frame4 (E : Json.Env) (v : Ver) (f : Frame4) : Res Frame4 :=
  if f.id = mkId4 'C' 'O' 'M' 'M' then
    (body E v f.body).bind fun o =>
    match o with
    | some c => .ok (Frame4.new (mkId4 'C' 'O' 'M' 'M') (.comm c) f.tap f.fap f.ro false none none false none)
    | none => .ok f
  else .ok f

/-- A loop that does the same with each of several things, in turn. -/
def each (F : α → Res α) : List α → Res (List α)
  | [] => .ok []
  | a :: as => (F a).bind fun a' => (each F as).bind fun as' => .ok (a' :: as')

/-- `process_tag(T)`, for each class of tags: examples/az-tags/src/main.cc L82-109, L165-180. -/
def tag (E : Json.Env) : AnyTag → Res AnyTag
  | .inl t => (each (frame22 E) t.frames).bind fun fs => .ok (.inl { t with frames := fs })
  | .inr (.inl t) => (each (frame4 E .v3) t.frames).bind fun fs => .ok (.inr (.inl { t with frames := fs }))
  | .inr (.inr t) => (each (frame4 E .v4) t.frames).bind fun fs => .ok (.inr (.inr { t with frames := fs }))

/-- The ID3v1 tag: examples/az-tags/src/main.cc L195-198: whether its comment is to be cleared. `E.v1` is `DEF_SRC_ENCODING`. -/
def v1Cleared (E : Json.Env) (t : V1Tag) : Res (Option V1Tag) :=
  (E.field t.comment).bind fun txt => .ok (if txt.take 18 = amazon then some (t.apply (.setComment [])) else none)

/-- One file: examples/az-tags/src/main.cc L152-201. -/
def file (E : Json.Env) (e : Replace.Env) (pth : Path) : FM Unit := do
  let old ← FM.look (absolute e.cwd pth)
  let r ← FM.lift (Dump.readFile E.z E.md5 old)
  let ts ← FM.lift (each (tag E) r.v2)
  Process.maybeEmplaceSteps (anyI E.z) e pth ts .never
  match r.v1 with
  | none => pure ()
  | some t => do
    let o ← FM.lift (v1Cleared E t)
    match o with
    | none => pure ()
    | some t' => Process.replaceId3v1Steps (absolute e.cwd pth) t'

/-- The loop over the arguments: examples/az-tags/src/main.cc L150-203. Nothing is caught. -/
def run (E : Json.Env) (e : Replace.Env) : List Path → FM Unit
  | [] => pure ()
  | p :: ps => do
    file E e p
    run E e ps

end AzTags
end Scribbu
