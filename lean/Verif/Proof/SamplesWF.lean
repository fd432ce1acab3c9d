import Verif.Spec.Samples
import Verif.Proof.DecideWF
/-! # The sample objects are well-formed -/

namespace Genie.Sample

theorem wf (v : Version) (hv : v ≠ .UNDEFINED) (c : RecordClass) : c.WF v (ofClass v c) := by
  cases c with
  | TerrainRestriction n =>
    refine ⟨⟨by simp [ofClass], ?_⟩, ⟨by simp [ofClass], ?_⟩⟩
    · intro x hx; rw [List.eq_of_mem_replicate hx]; decide +kernel
    · intro x hx; rw [List.eq_of_mem_replicate hx]; cases v <;> decide +kernel
  | _ =>
    revert hv
    cases v <;> (intro hv; simp only [RecordClass.WF]; first | (exact absurd rfl hv) | decide +kernel)

theorem datFile_wf (v : Version) (hv : v ≠ .UNDEFINED) : DatFile.WFAt v (datFile v) := by
  cases v with
  | UNDEFINED => exact absurd rfl hv
  | _ =>
    decide +kernel

end Genie.Sample
