import Verif.Model.Io
import Verif.Proof.Ret
import Verif.Props.C11_C15_RoundTrip
import Verif.Props.C17_Versions
/-!
# C38: version handling of `DatFile`
-/

namespace Genie

/-- A version string that is no member of `Version`: nothing is written. -/
theorem C38_write_unknown_version (d : DatFile) (h : ∀ v : Version, v.value ≠ d.version) :
    DatFile.toBytes d = .error .valueError := by
  unfold DatFile.toBytes DatFile.toBytesGiven; rw [C17_lookup_unknown _ h]

/-- The `version` argument of `to_bytes` has no influence: neither on the bytes nor on the exception. -/
theorem C38_version_argument_ignored (d : DatFile) (version : Version) :
    DatFile.toBytesGiven d version = DatFile.toBytes d := rfl

/-- Reading: the first 8 bytes decide.  Not UTF-8: `UnicodeDecodeError`. -/
theorem C38_read_undecodable (data : Bytes) (e : PyErr) (h : strDecode (rstripNul (data.take 8)) = .error e) :
    DatFile.ofData data = .error e := by
  have : DatFile.fromBytes (ByteHandler.new data) = .error e := by
    unfold DatFile.fromBytes
    rw [header_eq]
    simp only [ByteHandler.new, List.drop_zero, String_from_bytes, h]
  simp [DatFile.ofData, this]

/-- Reading: a text that is no member of `Version` is a `ValueError`, whatever follows. -/
theorem C38_read_unknown_version (data : Bytes) (s : PyStr) (h : strDecode (rstripNul (data.take 8)) = .ok s)
    (hs : ∀ v : Version, v.value ≠ s) : DatFile.ofData data = .error .valueError := by
  have : DatFile.fromBytes (ByteHandler.new data) = .error .valueError := by
    unfold DatFile.fromBytes
    rw [header_eq]
    simp only [ByteHandler.new, List.drop_zero, String_from_bytes, h, C17_lookup_unknown _ hs]
  simp [DatFile.ofData, this]

/-- A parsed object's version is one of the ten names of the format, it is the text of the first 8 bytes, and the handler's version was set to it. -/
theorem C38_parsed_version (data : Bytes) (d : DatFile) (h' : ByteHandler)
    (hr : DatFile.fromBytes (ByteHandler.new data) = .ok (d, h')) :
    h'.version ≠ .UNDEFINED ∧ d.version = h'.version.value ∧
      strDecode (rstripNul (data.take 8)) = .ok d.version := by
  have hw := (C13_parsed_wellformed _ _ _ hr).version
  have key : ∀ q ∈ versionNames, q.2 ≠ .UNDEFINED ∧ q.1 = q.2.value := by decide
  obtain ⟨k1, k2⟩ := key _ hw
  refine ⟨k1, k2, ?_⟩
  cases hs : strDecode (rstripNul (data.take 8)) with
  | error e =>
    have := C38_read_undecodable data e hs
    simp [DatFile.ofData, hr] at this
  | ok s =>
    unfold DatFile.fromBytes at hr
    rw [header_eq] at hr
    simp only [ByteHandler.new, List.drop_zero, String_from_bytes, hs] at hr
    split at hr
    · cases hr
    · rename_i w hw
      have : ∀ {r : Reader DatFile} {h}, Ret r (fun x => x.version = s) → r h = .ok (d, h') → d.version = s :=
        fun a b => a _ _ _ b
      rw [this ?_ hr]
      repeat (refine Ret.skip fun _ => ?_)
      exact Ret.pure rfl


example : DatFile.ofData [86, 69, 82, 32, 57, 46, 57, 0, 1, 2, 3] = .error .valueError := rfl

/-- A text that decodes, but is no version. -/
example : strDecode (rstripNul ([86, 69, 82, 32, 57, 46, 57, 0, 1, 2, 3].take 8)) = .ok (lit "VER 9.9") ∧
    ∀ v : Version, v.value ≠ lit "VER 9.9" := ⟨rfl, by intro v; cases v <;> decide⟩

/-- Bytes that do not decode. -/
example : strDecode (rstripNul ([255, 0, 1, 2].take 8)) = .error .unicodeDecodeError := rfl

end Genie
