import Verif.Model.XtagCmd
import Verif.Spec.Commands
import Verif.Spec.TagCloud
import Verif.Spec.PopmCmd

/-! Independent specification of what the sub-command `xtag` does. -/

namespace Scribbu.Spec
open Scribbu Commands Process

/-- A frame is a tag cloud of this owner, and says this when it is read. -/
def Cloud (c : Cfg) (x : Item) (own : Bytes) (a : AbsCloud) : Prop :=
  x.id = xtgId c ∧ ∃ t, cloudOf x.data = .ok t ∧ t.own = own ∧ Represents t.tags a

/-- A tag cloud that the sub-command is to change, or show: that of the owner, or any if no owner is given. -/
def CloudAsked (c : Cfg) (owner : Bytes) (x : Item) : Prop := ∃ own a, Cloud c x own a ∧ (owner = [] ∨ owner = own)

/-- The cloud afterwards: with what is given in the text, or that alone. -/
def cloudAfter (o : XtagCfg) (a : AbsCloud) : AbsCloud := if o.merge then a.merge o.cloud else a.update o.cloud

/-- A frame before and after. Frames of 4 GB and more cannot be read back. -/
structure CloudDone (c : Cfg) (o : XtagCfg) (x x' : Item) : Prop where
  id : x'.id = x.id
  cls : x'.cls = x.cls
  asked : ∀ own a, Cloud c x own a → o.owner = [] ∨ o.owner = own → x'.data.length < 2 ^ 32 → Cloud c x' own (cloudAfter o a)
  other : ¬ CloudAsked c o.owner x → x' = x

/-- What `xtag` does to a tag: the tag clouds asked for are changed; if there is none, one is made if so asked; the tag is to be written
if there is a change. -/
structure CloudsDone (o : XtagCfg) (t : Tg) (upd : Bool) (t' : Tg) : Prop where
  cfg : t'.cfg = t.cfg
  frames : ∃ l made, contents t'.tag = l ++ made ∧ Pointwise (CloudDone t.cfg o) (contents t.tag) l ∧
    (o.create = true ∧ (¬ ∃ x ∈ contents t.tag, CloudAsked t.cfg o.owner x) →
      ∃ x, made = [x] ∧ (x.data.length < 2 ^ 32 → Cloud t.cfg x o.owner ⟨MentionsKey o.cloud, MentionsVal o.cloud⟩)) ∧
    (¬ (o.create = true ∧ ¬ ∃ x ∈ contents t.tag, CloudAsked t.cfg o.owner x) → made = []) ∧
    (upd = true ↔ made ≠ [] ∨ ∃ x ∈ contents t.tag, CloudAsked t.cfg o.owner x)

/-- No string in the text holds a NUL. -/
def CleanText (text : Bytes) : Prop := (∀ k, MentionsKey text k → 0 ∉ k) ∧ ∀ k v, MentionsVal text k v → 0 ∉ v

/-- Tag clouds can be read. -/
def CloudsReadable (t : Tg) : Prop := ∀ x ∈ contents t.tag, x.id = xtgId t.cfg → ∃ y, cloudOf x.data = .ok y

/-- What is printed for a frame: nothing if it is no cloud asked for; for a cloud asked for one line, which means the cloud, or nothing if
there is nothing in the cloud (but perhaps the empty key). -/
structure Shows (c : Cfg) (owner : Bytes) (x : Item) (lines : List Bytes) : Prop where
  other : ¬ CloudAsked c owner x → lines = []
  asked : ∀ own a, Cloud c x own a → owner = [] ∨ owner = own →
    (lines = [] ∧ (∀ k, a.key k → k = []) ∧ ∀ k v, ¬ a.val k v) ∨
    ∃ text, lines = [text] ∧ text ≠ [] ∧ (∀ k, MentionsKey text k ↔ a.key k) ∧ ∀ k v, MentionsVal text k v ↔ a.val k v

/-- Options that say something and do not contradict one another. -/
structure XtagOptsOk (o : XtagOpts) : Prop where
  create : ¬ (o.alwaysV2 = true ∧ o.createV2 = true)
  given : o.get = true ∨ o.xtags ≠ none

/-- What the options ask for. -/
structure XtagAsked (o : XtagOpts) (P : Processor Tg) : Prop where
  scope : P.v2Scope = if o.tags = [] then .all else .some o.tags
  dryRun : P.dryRun = o.dryRun
  backups : P.createBackups = o.createBackups
  unsync : P.adjustUnsync = o.adjustUnsync
  always : P.v2Create = .always ↔ o.alwaysV2 = true
  whenV1 : P.v2Create = .whenOther ↔ o.createV2 = true
  v1 : P.v1Scope = false
  v1Create : P.v1Create = .never
  change : ∀ x, o.xtags = some x → P.processV2 = xtagTag ⟨x, o.owner, false, o.createFrame, o.merge, o.dryRun⟩

/-- The tag has a cloud of this owner with what the text says. -/
def HasCloud (t : Tg) (owner text : Bytes) : Prop :=
  ∃ x ∈ contents t.tag, x.data.length < 2 ^ 32 → Cloud t.cfg x owner ⟨MentionsKey text, MentionsVal text⟩

end Scribbu.Spec
