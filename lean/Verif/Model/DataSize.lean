import Verif.Model.Coo
import Verif.Model.Crs
import Verif.Model.Dense
import Verif.Model.TensorDense
import Verif.Model.TensorCoo
import Verif.Model.TensorCrs
import Mathlib.Data.Rat.Defs

/-! `get_data_size()`: "get format data size [GB]". `F` is `sizeof(Float)`; `sizeof(int)` is 4.

Simplification: the products are natural numbers (they stay below `2^64` because the arrays are in memory) and the
quotient by `1.0e+9` is exact. -/

namespace Verif.DataSize

variable {α : Type}

/-- `vector` has no `get_data_size`; `Dense::get_data_size`: include/monolish/common/monolish_dense.hpp:454-456 -/
def dense (F : Nat) (A : Dense α) : ℚ := ((A.nnz * F : Nat) : ℚ) / 1000000000

/-- `COO::get_data_size`: include/monolish/common/monolish_coo.hpp:700-702 -/
def coo (F : Nat) (A : Coo α) : ℚ := ((3 * A.nnz * F : Nat) : ℚ) / 1000000000

/-- `CRS::get_data_size`: include/monolish/common/monolish_crs.hpp:777-781 -/
def crs (F : Nat) (A : Crs α) : ℚ := ((A.nnz * F + (A.rowN + 1) * 4 + A.nnz * 4 : Nat) : ℚ) / 1000000000

/-- `tensor_Dense::get_data_size`: include/monolish/common/monolish_tensor_dense.hpp:397-399 -/
def tdense (F : Nat) (A : TDense α) : ℚ := ((A.nnz * F : Nat) : ℚ) / 1000000000

/-- `tensor_COO::get_data_size`: include/monolish/common/monolish_tensor_coo.hpp:230-232 -/
def tcoo (F : Nat) (A : TCoo α) : ℚ := ((A.nnz * F : Nat) : ℚ) / 1000000000

/-- `tensor_CRS::get_data_size`: include/monolish/common/monolish_tensor_crs.hpp:125-127 -/
def tcrs (F : Nat) (A : TCrs α) : ℚ := ((A.nnz * F : Nat) : ℚ) / 1000000000

end Verif.DataSize
