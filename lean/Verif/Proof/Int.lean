import Verif.Py.Basic
import Verif.Spec.Ranges
/-! # Lemmas about `intFromBytes` / `intToBytes` -/

namespace Genie

theorem natLE_length (n x : Nat) : (natLE n x).length = n := by
  induction n generalizing x with
  | zero => rfl
  | succ n ih => simp [natLE, ih]

theorem leNat_lt (bs : Bytes) : leNat bs < 256 ^ bs.length := by
  induction bs with
  | nil => simp [leNat]
  | cons b bs ih =>
    have := b.toNat_lt
    simp only [leNat, List.length_cons, Nat.pow_succ]
    omega

theorem leNat_natLE (n x : Nat) : leNat (natLE n x) = x % 256 ^ n := by
  induction n generalizing x with
  | zero => simp [natLE, leNat, Nat.mod_one]
  | succ n ih =>
    simp only [natLE, leNat, ih]
    have h1 : (UInt8.ofNat (x % 256)).toNat = x % 256 := by
      simp
    rw [h1, Nat.pow_succ, Nat.mul_comm (256 ^ n) 256, Nat.mod_mul]

theorem natLE_leNat (bs : Bytes) : natLE bs.length (leNat bs) = bs := by
  induction bs with
  | nil => rfl
  | cons b bs ih =>
    have hb := b.toNat_lt
    simp only [List.length_cons, natLE, leNat]
    have h1 : (b.toNat + 256 * leNat bs) % 256 = b.toNat := by omega
    have h2 : (b.toNat + 256 * leNat bs) / 256 = leNat bs := by omega
    rw [h1, h2, ih]
    simp

theorem natLE_of_lt {n : Nat} {bs : Bytes} (h : bs.length = n) : natLE n (leNat bs) = bs := by
  subst h; exact natLE_leNat bs

/-- `OverflowError` or exactly `length` bytes. -/
theorem intToBytes_length {i : Int} {n : Nat} {s : Bool} {bs : Bytes}
    (h : intToBytes i n s = .ok bs) : bs.length = n := by
  unfold intToBytes at h
  split at h <;> split at h <;> simp at h <;> subst h <;> exact natLE_length _ _

theorem intToBytes_signed_ok {i : Int} {n : Nat}
    (h : -(256 : Int) ^ n ≤ 2 * i ∧ 2 * i < (256 : Int) ^ n) :
    ∃ bs, intToBytes i n true = .ok bs ∧ intFromBytes bs true = i := by
  refine ⟨natLE n (i % (256 : Int) ^ n).toNat, by simp [intToBytes, h], ?_⟩
  have hp : (0 : Int) < (256 : Int) ^ n := Int.pow_pos (by omega)
  have hm0 : 0 ≤ i % (256 : Int) ^ n := Int.emod_nonneg _ (by omega)
  have hm1 : i % (256 : Int) ^ n < (256 : Int) ^ n := Int.emod_lt_of_pos _ hp
  have hcast : ((256 ^ n : Nat) : Int) = (256 : Int) ^ n := by simp
  have hlt : (i % (256 : Int) ^ n).toNat < 256 ^ n := by omega
  unfold intFromBytes
  rw [natLE_length, leNat_natLE, Nat.mod_eq_of_lt hlt]
  by_cases hi : 0 ≤ i
  · have : i % (256 : Int) ^ n = i := Int.emod_eq_of_lt hi (by omega)
    rw [if_neg]
    · omega
    · intro ⟨_, hc⟩; omega
  · have : i % (256 : Int) ^ n = i + (256 : Int) ^ n := by
      rw [← Int.add_emod_right]
      exact Int.emod_eq_of_lt (by omega) (by omega)
    rw [if_pos]
    · omega
    · refine ⟨rfl, ?_⟩; omega

theorem intToBytes_unsigned_ok {i : Int} {n : Nat}
    (h : 0 ≤ i ∧ i < (256 : Int) ^ n) :
    ∃ bs, intToBytes i n false = .ok bs ∧ intFromBytes bs false = i := by
  refine ⟨natLE n i.toNat, by simp [intToBytes, h], ?_⟩
  have hcast : ((256 ^ n : Nat) : Int) = (256 : Int) ^ n := by simp
  have hlt : i.toNat < 256 ^ n := by omega
  unfold intFromBytes
  rw [natLE_length, leNat_natLE, Nat.mod_eq_of_lt hlt]
  simp; omega

/-- What an integer read can return. -/
theorem intFromBytes_range_signed (bs : Bytes) :
    -(256 : Int) ^ bs.length ≤ 2 * intFromBytes bs true ∧
      2 * intFromBytes bs true < (256 : Int) ^ bs.length := by
  have h := leNat_lt bs
  have hcast : ((256 ^ bs.length : Nat) : Int) = (256 : Int) ^ bs.length := by simp
  unfold intFromBytes
  simp only [true_and]
  split <;> omega

theorem intFromBytes_range_unsigned (bs : Bytes) :
    0 ≤ intFromBytes bs false ∧ intFromBytes bs false < (256 : Int) ^ bs.length := by
  have h := leNat_lt bs
  have hcast : ((256 ^ bs.length : Nat) : Int) = (256 : Int) ^ bs.length := by simp
  unfold intFromBytes
  simp; omega

/-- Writing back what was read gives the same bytes. -/
theorem intToBytes_intFromBytes (bs : Bytes) (s : Bool) :
    intToBytes (intFromBytes bs s) bs.length s = .ok bs := by
  have hlt := leNat_lt bs
  have hcast : ((256 ^ bs.length : Nat) : Int) = (256 : Int) ^ bs.length := by simp
  cases s with
  | true =>
    have hr := intFromBytes_range_signed bs
    unfold intToBytes
    rw [if_pos rfl, if_pos hr]
    have : (intFromBytes bs true % (256 : Int) ^ bs.length).toNat = leNat bs := by
      unfold intFromBytes
      split
      · rw [Int.sub_emod_right, ← hcast, ← Int.natCast_emod, Nat.mod_eq_of_lt hlt]; simp
      · rw [← hcast, ← Int.natCast_emod, Nat.mod_eq_of_lt hlt]; simp
    rw [this, natLE_leNat]
  | false =>
    have hr := intFromBytes_range_unsigned bs
    unfold intToBytes
    rw [if_neg (by simp), if_pos hr]
    have : (intFromBytes bs false).toNat = leNat bs := by simp [intFromBytes]
    rw [this, natLE_leNat]

end Genie
