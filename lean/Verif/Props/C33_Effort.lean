import Verif.Proof.Effort
import Verif.Proof.SamplesWF
import Verif.Model.Io
/-!
# C33: the size of what a parse builds is not bounded by the size of the file
-/

namespace Genie

/-- There is a constant prefix such that, followed by the four bytes of any number `n < 2^32`, `MapInfo.from_bytes` returns
an object with `n` map lands. -/
theorem C33_map_info_unbounded (v : Version) :
    ∃ front : Bytes, ∀ n, n < 2 ^ 32 →
      ∃ m h', MapInfo.fromBytes { ByteHandler.new (front ++ natLE 4 n) with version := v } = .ok (m, h') ∧
        m.map_lands.length = n := by
  obtain ⟨b, hb⟩ := MapInfo.lands v
  refine ⟨b, fun n hn => ?_⟩
  obtain ⟨m, h', h1, -, h2⟩ := hb n (by omega) { ByteHandler.new (b ++ natLE 4 n) with version := v } rfl rfl
  exact ⟨m, h', h1, h2⟩

/-- The same for whole files: files of one and the same size parse, without any exception, to objects with any number
`n < 2^32` of map lands. -/
theorem C33_datfile_unbounded :
    ∃ front : Bytes, ∀ n, n < 2 ^ 32 →
      ∃ d m, DatFile.ofData (front ++ natLE 4 n) = .ok d ∧ d.random_maps.map_info_1 = [m] ∧ m.map_lands.length = n := by
  obtain ⟨b, hb⟩ := DatFile.lands (Sample.datFile_wf .VER_88 (by decide))
  refine ⟨b, fun n hn => ?_⟩
  obtain ⟨d, h', h1, m, h2, h3⟩ := hb n (by omega) (ByteHandler.new (b ++ natLE 4 n)) rfl
  exact ⟨d, m, by simp [DatFile.ofData, h1], h2, h3⟩

/-- A concrete run: 44 bytes, 3 map lands. -/
example : (resultOf (MapInfo.fromBytes (ByteHandler.new (List.replicate 40 0 ++ [3, 0, 0, 0])))).map
    (fun r => r.1.map_lands.length) = some 3 := by decide +kernel

end Genie
