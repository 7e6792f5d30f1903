import Verif.Core.Outcome

/-!
# Byte strings and the `Bytestream` operations used by the code

`bytestream` is a git submodule that is empty in /repo; the operations below are what the code and its
tests rely on (see DESIGN.md, trusted base). A `Bytestream` that is read sequentially is represented by
the bytes that remain to be read.
-/

namespace Verif

abbrev Bytes := List UInt8

/-- The bytes of an ASCII string literal (`std::string`, no terminating NUL). -/
def ascii (s : String) : Bytes := s.toList.map (fun c => UInt8.ofNat c.toNat)

/-- `bts << (uint8_t)n`: one byte; larger values are truncated as C++ conversion does. -/
def be8 (n : Nat) : Bytes := [UInt8.ofNat n]

/-- `bts << (uint16_t)n`: two bytes, big-endian; larger values are truncated. -/
def be16 (n : Nat) : Bytes := [UInt8.ofNat (n / 256), UInt8.ofNat n]

/-- `bts << (uint32_t)n`: four bytes, big-endian; larger values are truncated. -/
def be32 (n : Nat) : Bytes :=
  [UInt8.ofNat (n / 16777216), UInt8.ofNat (n / 65536), UInt8.ofNat (n / 256), UInt8.ofNat n]

/-- `bts >> uint8_t`. -/
def rd8 : Bytes → Outcome (Nat × Bytes)
  | a :: r => .ok (a.toNat, r)
  | _ => .throws .outOfRange

/-- `bts >> uint16_t`. -/
def rd16 : Bytes → Outcome (Nat × Bytes)
  | a :: b :: r => .ok (a.toNat * 256 + b.toNat, r)
  | _ => .throws .outOfRange

/-- `bts >> uint32_t`. -/
def rd32 : Bytes → Outcome (Nat × Bytes)
  | a :: b :: c :: d :: r =>
    .ok (a.toNat * 16777216 + b.toNat * 65536 + c.toNat * 256 + d.toNat, r)
  | _ => .throws .outOfRange

/-- `bts.getBytestream(n)` / `bts.getString(n)`. -/
def rdBytes (n : Nat) (s : Bytes) : Outcome (Bytes × Bytes) :=
  if n ≤ s.length then .ok (s.take n, s.drop n) else .throws .outOfRange

/-- `bts >>= x` for a byte string `x`: on a match the rest, otherwise `none` and the position is unchanged. -/
def matchBytes (x s : Bytes) : Option Bytes :=
  if x.isPrefixOf s then some (s.drop x.length) else none

/-! ## Basic facts -/

@[simp] theorem be8_length (n : Nat) : (be8 n).length = 1 := rfl
@[simp] theorem be16_length (n : Nat) : (be16 n).length = 2 := rfl
@[simp] theorem be32_length (n : Nat) : (be32 n).length = 4 := rfl

@[simp] theorem rd8_be8 (n : Nat) (r : Bytes) : rd8 (be8 n ++ r) = .ok (n % 256, r) := by
  simp [rd8, be8]

@[simp] theorem rd16_be16 (n : Nat) (r : Bytes) : rd16 (be16 n ++ r) = .ok (n % 65536, r) := by
  simp [rd16, be16]; omega

@[simp] theorem rd32_be32 (n : Nat) (r : Bytes) : rd32 (be32 n ++ r) = .ok (n % 4294967296, r) := by
  simp [rd32, be32]; omega

@[simp] theorem rdBytes_append (x r : Bytes) (n : Nat) (h : x.length = n) :
    rdBytes n (x ++ r) = .ok (x, r) := by
  subst h; simp [rdBytes]

theorem rdBytes_ok {n : Nat} {s x r : Bytes} (h : rdBytes n s = .ok (x, r)) :
    s = x ++ r ∧ x.length = n := by
  unfold rdBytes at h
  split at h
  · simp only [Outcome.ok.injEq, Prod.mk.injEq] at h
    obtain ⟨rfl, rfl⟩ := h
    simp; omega
  · cases h

@[simp] theorem matchBytes_append (x r : Bytes) : matchBytes x (x ++ r) = some r := by
  simp [matchBytes]

theorem matchBytes_some {x s r : Bytes} (h : matchBytes x s = some r) : s = x ++ r := by
  unfold matchBytes at h
  split at h
  · rename_i hp
    rw [List.isPrefixOf_iff_prefix] at hp
    obtain ⟨t, rfl⟩ := hp
    simp at h; simp [h]
  · cases h

end Verif
