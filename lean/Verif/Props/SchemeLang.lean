import Verif.Props.SchemeWrite

/-! # C136, C137: the language of a comment, in Scheme -/

namespace Scribbu.Props
open Scribbu Scribbu.Scheme Scribbu.Spec Scribbu.Spec.Scheme Scribbu.Proofs.Scheme

/-- An ID3v2.3 tag with a comment whose language is `e`, E9, `g`. -/
def oddLanguage : Bytes :=
  [0x49, 0x44, 0x33, 3, 0, 0, 0, 0, 0, 16] ++ [67, 79, 77, 77] ++ [0, 0, 0, 6, 0, 0] ++ [0, 0x65, 0xe9, 0x67, 0, 0x41]

/-- **Finding** A byte of a comment's language that is not ASCII is replaced by a null character, and that ends the text: of a language
`e`, E9, `g` Scheme sees `e`, which no comment in a file can have. -/
theorem C136_refuted_language :
    (readTagset scmEnv (some oddLanguage)).bind (fun xs => .ok (xs.map fun x => x.1.frames.map fun o => o.slots[5]?)) =
      .ok [[some (.str [0x65])]] := by decide +kernel

/-- **C137** A comment object without a language makes the very frame that the same object makes with the language `eng`, whatever else
is in its slots and whatever the version of the tag. -/
theorem C137_language_partial (E : Scheme.Env) (v : Ver) (s0 s1 s2 s3 s4 : Val) (l : List Val) :
    serBody E v .comment (s0 :: s1 :: s2 :: s3 :: s4 :: .str [] :: l) =
      serBody E v .comment (s0 :: s1 :: s2 :: s3 :: s4 :: .str [0x65, 0x6e, 0x67] :: l) := by
  have h1 : cstr (.str []) = .ok [] := by decide
  have h2 : cstr (.str [0x65, 0x6e, 0x67]) = .ok [0x65, 0x6e, 0x67] := by decide
  have h3 : Language.parse [0x65, 0x6e, 0x67] = .ok 129 := by decide +kernel
  have h4 : langCode E [] = langCode E [0x65, 0x6e, 0x67] := by
    unfold langCode
    rw [if_pos rfl, if_neg (by simp), h3]
    rfl
  unfold serBody
  simp only [slot, List.getElem?_cons_succ, List.getElem?_cons_zero, ok_bind, h1, h2, h4, if_true, if_neg (show ¬ ([0x65, 0x6e, 0x67] : Bytes) = [] by simp), h3, ofRes_ok]

example : ∃ b, serBody scmEnv .v3 .comment [.nil, .nil, .nil, .nil, .nil, .str [], .str [0x61], .str [0x62]] = .ok b :=
  ⟨_, rfl⟩

end Scribbu.Props
