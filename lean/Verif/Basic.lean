/-!
# Shared vocabulary

Types used by more than one part of the model.
-/

namespace Verif

/-- Realm IPA state.  /repo/lib/s2tt/include/ripas.h:17-23 (`enum ripas`); the
value `RIPAS_DEV` (3) is never produced by the code at this commit and is left out. -/
inductive Ripas where
  | empty
  | ram
  | destroyed
  deriving DecidableEq, Repr, Inhabited

/-- Numeric value of a RIPAS.  /repo/lib/smc/include/smc-rmi.h:201-207. -/
def Ripas.code : Ripas → Nat
  | .empty => 0
  | .ram => 1
  | .destroyed => 2

/-- Size of a granule.  /repo/lib/common/include/utils_def.h (`GRANULE_SIZE`). -/
abbrev granuleSize : Nat := 4096

end Verif
