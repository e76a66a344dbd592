import Verif.Proofs.GenreRun

/-! # Genres: C78, texts that are shorter than a genre, and the empty text -/

namespace Scribbu.Props

open Spec Genres

theorem matchGenre_of {dec : Bytes → Option (List Nat)} {lower : Nat → Nat} {text : Bytes} {w : List Nat} {c : Ctx} {inf : Nat} {F : Fkp}
    {l g : Nat} {s : Bytes} (hd : dec text = some w) (hB : w.map lower = c.B) (hinf : max 22 w.length = inf) (hF : initFkp ⟨c.B, inf⟩ = .ok F)
    (hb : bestOf ⟨c.B, inf⟩ keys 0 inf none F = .ok (l, some g)) (ht : textForGenre (UInt8.ofNat g) = some s) :
    matchGenre dec lower text = .ok (s, g, l) := by
  unfold matchGenre
  rw [hd]
  have hlen : c.B.length = w.length := by rw [← hB]; simp
  simp only [hB, hlen, hinf, hF, Res.ok_bind, hb, ht]

/-- C78: "nue dutschll" is seven changes away from "Neue Deutsche Welle", but what is returned is "Industrial", which is eight away: what
earlier genres left behind is taken for a result. -/
theorem C78_refuted_overlooked :
    matchGenre (fun b => some (b.map (·.toNat))) asciiLower [110, 117, 101, 32, 100, 117, 116, 115, 99, 104, 108, 108] =
        .ok ([73, 110, 100, 117, 115, 116, 114, 105, 97, 108], 19, 8) ∧
      Spec.genres[185]? = some [78, 101, 117, 101, 32, 68, 101, 117, 116, 115, 99, 104, 101, 32, 87, 101, 108, 108, 101] ∧
      Turns (folded [78, 101, 117, 101, 32, 68, 101, 117, 116, 115, 99, 104, 101, 32, 87, 101, 108, 108, 101])
        [110, 117, 101, 32, 100, 117, 116, 115, 99, 104, 108, 108] 7 := by
  refine ⟨?_, by decide +kernel,
    [.keep 110, .delete 101, .keep 117, .keep 101, .keep 32, .keep 100, .delete 101, .keep 117, .keep 116, .keep 115, .keep 99,
     .keep 104, .delete 101, .delete 32, .delete 119, .delete 101, .keep 108, .keep 108, .delete 101], by decide +kernel, by decide,
    by decide⟩
  exact matchGenre_of (c := nue) (inf := 22) (F := nue0) (w := [110, 117, 101, 32, 100, 117, 116, 115, 99, 104, 108, 108]) rfl (by decide +kernel) (by decide) nue_init nue_bestOf
    (by decide +kernel)

/-- C78: for the empty text, something outside of the array is read. -/
theorem C78_refuted_empty : matchGenre (fun b => some (b.map (·.toNat))) asciiLower [] = .ub .oobRead := by decide +kernel

end Scribbu.Props
