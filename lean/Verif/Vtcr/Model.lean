import Verif.Leaf.Features

/-!
# The stage-2 translation registers of a REC

Model of the part of REC_CREATE that computes VTCR_EL2, VTTBR_EL2 and MDCR_EL2 from the realm descriptor:
/repo/runtime/rmi/rec.c:37-141.  Nothing changes `rec->common_sysregs` of these registers later (the world switch
is in `Verif.Switch`, which loads them from there).
-/

namespace Verif.Vtcr

open Features (W inplace mask extract)

/-- `sl0_val`: rec.c:41-47, with the `VTCR_SL0_4K_*` values of /repo/lib/arch/include/arch.h:665-672.  Indexed by
the starting level plus one. -/
def sl0Val : List W := [inplace 6 0, inplace 6 2, inplace 6 1, inplace 6 0, inplace 6 3]

/-- `realm_vtcr_ps`: rec.c:49-68; arch.h:514-520, 698-706. -/
def vtcrPs (parange : Nat) : W :=
  if parange = 36 then inplace 16 1
  else if parange = 40 then inplace 16 2
  else if parange = 42 then inplace 16 3
  else if parange = 44 then inplace 16 4
  else if parange = 48 then inplace 16 5
  else if parange = 52 then inplace 16 6
  else inplace 16 0

/-- `VTCR_FLAGS`: arch.h:682-721. -/
def vtcrFlags : W :=
  inplace 8 1 ||| inplace 10 1 ||| inplace 12 3 ||| inplace 14 0 ||| inplace 30 1 ||| inplace 31 1

/-- `realm_vtcr`: rec.c:70-104.  `vmid16` is `is_feat_vmid16_present()`, `parange` is `arch_feat_get_pa_width()`.
`none` is a failing `assert`. -/
def realmVtcr (vmid16 : Bool) (parange : Nat) (sl : Int) (ipaBits : Nat) (lpa2 : Bool) : Option W :=
  let v := if vmid16 then vtcrFlags ||| inplace 19 1 else vtcrFlags
  if ((lpa2 = false ∧ 0 ≤ sl) ∨ (lpa2 = true ∧ -1 ≤ sl)) ∧ sl ≤ 3 then
    let sl0 := sl0Val.getD (sl + 1).toNat 0
    let t0sz := (64#64 - BitVec.ofNat 64 ipaBits) &&& mask 0 6
    let v := v ||| t0sz
    let v := v ||| sl0
    let v := v ||| vtcrPs parange
    let v := if lpa2 then
        let v := if sl = -1 then v ||| inplace 33 1 else v
        v ||| inplace 32 1
      else v
    some v
  else none

/-- VTTBR_EL2 in `init_common_sysregs`: rec.c:114-125; arch.h:266-272, 280-281. -/
def vttbr (root vmid : Nat) (lpa2 : Bool) : W :=
  let addr := BitVec.ofNat 64 root
  let v := addr &&& mask 1 47
  let v := if lpa2 then (v &&& ~~~ mask 2 4) ||| (extract 48 4 addr <<< 2) else v
  v ||| inplace 48 vmid

/-- MDCR_EL2 in `init_common_sysregs`: rec.c:108, 127-140; arch.h:883-887.  `mdcr` is what MDCR_EL2 holds on the CPU
that runs REC_CREATE, `ctrs` is `rd->pmu_num_ctrs`. -/
def mdcr (mdcr : W) (pmu : Bool) (ctrs : Nat) : W :=
  if pmu then
    let v := mdcr &&& ~~~ (1#64 <<< 6 ||| 1#64 <<< 5)
    let v := v &&& ~~~ mask 0 5
    v ||| inplace 0 ctrs
  else mdcr ||| (1#64 <<< 6 ||| 1#64 <<< 5)

end Verif.Vtcr
