/-! Decidable equality of results, for the concrete runs beside the theorems. -/
namespace Verif
deriving instance DecidableEq for Except
end Verif
