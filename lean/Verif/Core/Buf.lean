import Verif.Core.Res

/-! Buffer primitives shared by all storage classes of the model. -/

namespace Verif

universe u

/-- Read the first `k` elements of a buffer (a copy loop `for i<k: tmp[i] = buf[i]`),
undefined behaviour if the buffer is shorter. -/
def readN {α : Type u} (l : List α) (k : Nat) : Res (List α) :=
  if k ≤ l.length then .ok (l.take k) else .ub "copy reads out of bounds"

/-- The allocate-copy-pad block that every `resize` of the library contains
(e.g. include/monolish/common/monolish_coo.hpp:411-419): a new buffer of `N` elements whose
first `min(nnz,N)` elements are copied from the old buffer and whose remaining elements are `v`. -/
def reallocCopy {α : Type u} (old : List α) (nnz N : Nat) (v : α) : Res (List α) := do
  let front ← readN old (min nnz N)
  .ok (front ++ List.replicate (N - min nnz N) v)

/-- `std::vector<T>::resize(N)` / `resize(N, v)`: truncate, or extend with `v`. -/
def stdResize {α : Type u} (l : List α) (N : Nat) (v : α) : List α :=
  l.take N ++ List.replicate (N - l.length) v

/-- `internal::vcopy(N, a, y)` and `std::copy`: copy `N` elements of `src` over the first `N`
elements of `dst` (src/internal/arithmetic/double_arithmetic.cpp, vcopy). Reading past `src` or
writing past `dst` is undefined behaviour. -/
def vcopy {α : Type u} (N : Nat) (src dst : List α) : Res (List α) :=
  if N ≤ src.length then
    if N ≤ dst.length then .ok (src.take N ++ dst.drop N) else .ub "copy writes out of bounds"
  else .ub "copy reads out of bounds"

theorem readN_ok {α : Type u} {l : List α} {k : Nat} (h : k ≤ l.length) :
    readN l k = .ok (l.take k) := by simp [readN, h]

theorem reallocCopy_ok {α : Type u} {old : List α} {nnz N : Nat} {v : α}
    (h : min nnz N ≤ old.length) :
    reallocCopy old nnz N v = .ok (old.take (min nnz N) ++ List.replicate (N - min nnz N) v) := by
  simp [reallocCopy, readN_ok h]

theorem vcopy_ok {α : Type u} {N : Nat} {src dst : List α} (h1 : N ≤ src.length)
    (h2 : N ≤ dst.length) : vcopy N src dst = .ok (src.take N ++ dst.drop N) := by
  simp [vcopy, h1, h2]

theorem take_zip {α β : Type u} (l : List α) (l' : List β) (i : Nat) :
    (l.zip l').take i = (l.take i).zip (l'.take i) := by
  simp [List.zip, List.take_zipWith]

@[simp] theorem length_stdResize {α : Type u} (l : List α) (N : Nat) (v : α) :
    (stdResize l N v).length = N := by
  simp [stdResize]; omega

theorem getElem_stdResize_lt {α : Type u} (l : List α) (N : Nat) (v : α) (i : Nat)
    (h : i < (stdResize l N v).length) (hi : i < l.length) : (stdResize l N v)[i] = l[i] := by
  have : i < N := by simpa using h
  have h2 : i < min N l.length := by omega
  simp [stdResize, h2]

theorem getElem_stdResize_ge {α : Type u} (l : List α) (N : Nat) (v : α) (i : Nat)
    (h : i < (stdResize l N v).length) (hi : l.length ≤ i) : (stdResize l N v)[i] = v := by
  have : i < N := by simpa using h
  simp [stdResize, List.getElem_append]
  omega

end Verif
