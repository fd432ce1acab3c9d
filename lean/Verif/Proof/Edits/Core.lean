import Verif.Proof.Edits.IntFields
import Verif.Proof.Edits.FloatFields
import Verif.Proof.Edits.TextFields
import Verif.Proof.Edits.FixedLists
import Verif.Proof.Edits.CountedLists
import Verif.Proof.Edits.SlotLists
/-! # Editing a record of a file -/

namespace Genie
open Layout

theorem DatFile.bytes_of_wf {v : Version} {d : DatFile} (h : DatFile.WFAt v d) :
    DatFile.toBytes d = .ok (layoutBytes (d.layoutAt v)) :=
  (DatFile.writesAt (versionNames_spec h.version).1).ok_of (DatFile.clean h)

theorem DatFile.reload_of_wf {v : Version} {d : DatFile} {bs : Bytes} (h : DatFile.WFAt v d) (hb : DatFile.toBytes d = .ok bs) :
    ∃ h', DatFile.fromBytes (ByteHandler.new bs) = .ok (d, h') :=
  (C13_round_trips_iff d bs hb).2 ⟨v, h⟩

theorem edit_core {v : Version} {d : DatFile} (hd : DatFile.WFAt v d) {n : Node} {p : Place .file n} (hs : p.Stored v) {x : n.Obj}
    (hg : p.get d = some x) {g : β → n.Obj} {it : β → List Item} {Q : β → Prop} (hsp : Splits Q (fun b => n.layout v (g b)) it) :
    ∃ pre post, ∀ b, Q b → n.WF v (g b) → p.Keeps d (g b) →
      DatFile.toBytes (p.set d (g b)) = .ok (pre ++ layoutBytes (it b) ++ post) ∧
      ∃ h', DatFile.fromBytes (ByteHandler.new (pre ++ layoutBytes (it b) ++ post)) = .ok (p.set d (g b), h') := by
  have good := p.good v d x hd hs hg
  obtain ⟨A1, B1, h1⟩ := good.splits
  obtain ⟨A2, B2, h2⟩ := hsp
  refine ⟨layoutBytes (A1 ++ A2), layoutBytes (B2 ++ B1), fun b hq hw hk => ?_⟩
  have hwf : DatFile.WFAt v (p.set d (g b)) := good.wf_set _ hw hk
  have e : DatFile.layoutAt v (p.set d (g b)) = (A1 ++ A2) ++ it b ++ (B2 ++ B1) := by
    have h1 := h1 _ hk
    have h2 := h2 b hq
    simp only [Node.layout] at h1 h2
    rw [h1, h2]
    simp only [List.append_assoc]
  have hb := DatFile.bytes_of_wf hwf
  rw [e, layoutBytes_append, layoutBytes_append] at hb
  exact ⟨hb, DatFile.reload_of_wf hwf hb⟩

end Genie
