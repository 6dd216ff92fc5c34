import Verif.Atom.Inv
import Verif.Atom.Keep
import Verif.Atom.Main
import Verif.Atom.Model
import Verif.Atom.Progress
import Verif.Atom.PropAtom
import Verif.Atom.PropRsi
import Verif.Atom.PropUnlock
import Verif.Atom.Rsi
import Verif.Atom.RsiInv
import Verif.Atom.RsiMain
import Verif.Atom.Seq
import Verif.Attest.Cbor
import Verif.Attest.Model
import Verif.Attest.Proof
import Verif.Attest.Props
import Verif.Basic
import Verif.Boot.Props
import Verif.Boot.Reloc
import Verif.Boot.RelocProof
import Verif.Boot.Start
import Verif.Boot.StartProof
import Verif.Boot.Token
import Verif.Boot.TokenProof
import Verif.Conc.Dead
import Verif.Conc.Flow
import Verif.Conc.Handlers
import Verif.Conc.Lock
import Verif.Conc.PropConc
import Verif.Conc.PropSlots
import Verif.Conc.Word
import Verif.Console.Model
import Verif.Console.Props
import Verif.Desc.Enc
import Verif.Desc.Hw
import Verif.Desc.Model
import Verif.Desc.Props
import Verif.Desc.Rel
import Verif.Desc.SimMem
import Verif.Desc.SimRest
import Verif.Desc.SimRtt
import Verif.Desc.Tab
import Verif.Dram.Model
import Verif.Dram.Props
import Verif.Geometry.Model
import Verif.Geometry.Props
import Verif.Heap.Calloc
import Verif.Heap.Cpus
import Verif.Heap.Free
import Verif.Heap.Inv
import Verif.Heap.Model
import Verif.Heap.Props
import Verif.Heap.Seg
import Verif.Heap.Take
import Verif.Leaf.Dispatch
import Verif.Leaf.Features
import Verif.Leaf.Gic
import Verif.Leaf.Mpidr
import Verif.Leaf.Status
import Verif.Life.Cmds
import Verif.Life.Destroy
import Verif.Life.Inv
import Verif.Life.Lift
import Verif.Life.Main
import Verif.Life.Model
import Verif.Life.Ov
import Verif.Life.OvStep
import Verif.Life.Progress
import Verif.Life.PropLife
import Verif.Life.RecCmds
import Verif.Life.Trace
import Verif.Life.Walk
import Verif.LockSet.Model
import Verif.LockSet.Props
import Verif.Log.Printf
import Verif.Log.PropConv
import Verif.Log.PropFormat
import Verif.Log.PropLog
import Verif.Log.PropPrintf
import Verif.Log.Rsi
import Verif.Meas.Extend
import Verif.Meas.Model
import Verif.Meas.Props
import Verif.Mem.Copy
import Verif.Mem.CopyProof
import Verif.Mem.Fill
import Verif.Mem.Memset
import Verif.Mem.MemsetProof
import Verif.Mem.Props
import Verif.Mem.Str
import Verif.Mem.ZeroProof
import Verif.Ni.Cmds
import Verif.Ni.Label
import Verif.Ni.Low
import Verif.Ni.Main
import Verif.Ni.PropNi
import Verif.Ni.Recs
import Verif.Ni.Spec
import Verif.Pac.Model
import Verif.Pac.Proof
import Verif.Pac.Props
import Verif.Rmm.Arith
import Verif.Rmm.Cmd
import Verif.Rmm.Demo
import Verif.Rmm.Eff
import Verif.Rmm.Foot
import Verif.Rmm.Frame
import Verif.Rmm.Hist
import Verif.Rmm.Inv
import Verif.Rmm.Ipa
import Verif.Rmm.Life
import Verif.Rmm.PresMem
import Verif.Rmm.PresRealm
import Verif.Rmm.PresRec
import Verif.Rmm.PresRtt
import Verif.Rmm.PresSoft
import Verif.Rmm.PresTab
import Verif.Rmm.PropFail
import Verif.Rmm.PropGranule
import Verif.Rmm.PropHist
import Verif.Rmm.PropInit
import Verif.Rmm.PropIso
import Verif.Rmm.PropLife
import Verif.Rmm.PropMeas
import Verif.Rmm.PropNs
import Verif.Rmm.PropRead
import Verif.Rmm.PropReply
import Verif.Rmm.PropTlb
import Verif.Rmm.PropView
import Verif.Rmm.SpecMem
import Verif.Rmm.SpecRtt
import Verif.Rmm.State
import Verif.Rmm.Step
import Verif.Rmm.View
import Verif.Rmm.ViewEff
import Verif.Rmm.ViewStep
import Verif.Run.Demo
import Verif.Run.Enter
import Verif.Run.Exit
import Verif.Run.Inv
import Verif.Run.Lemmas
import Verif.Run.PropCall
import Verif.Run.PropEnter
import Verif.Run.PropErr
import Verif.Run.PropExit
import Verif.Run.PropFeat
import Verif.Run.PropInject
import Verif.Run.PropIpa
import Verif.Run.PropMmio
import Verif.Run.PropPsci
import Verif.Run.PropRegs
import Verif.Run.PropRipas
import Verif.Run.PropSysreg
import Verif.Run.PropTimer
import Verif.Run.PropToken
import Verif.Run.Rsi
import Verif.Run.Sys
import Verif.Run.Types
import Verif.Run.VError
import Verif.S2tte.Encode
import Verif.S2tte.Lemmas
import Verif.S2tte.Model
import Verif.S2tte.Props
import Verif.S2tte.Spec
import Verif.Sign.Demo
import Verif.Sign.Inv
import Verif.Sign.Lock
import Verif.Sign.Model
import Verif.Sign.Own
import Verif.Sign.Props
import Verif.Sign.Step
import Verif.Simd.Inv
import Verif.Simd.Keep
import Verif.Simd.Lemmas
import Verif.Simd.Model
import Verif.Simd.Props
import Verif.Simd.Steps
import Verif.Slot.Lemmas
import Verif.Slot.Model
import Verif.Slot.PropSlot
import Verif.Switch.Asm
import Verif.Switch.AsmProps
import Verif.Switch.Disr
import Verif.Switch.First
import Verif.Switch.Host
import Verif.Switch.Lemmas
import Verif.Switch.Model
import Verif.Switch.Props
import Verif.Switch.Spec
import Verif.Tac
import Verif.Trap.Buffer
import Verif.Trap.Crash
import Verif.Trap.Inv
import Verif.Trap.Model
import Verif.Trap.Props
import Verif.Trap.Step
import Verif.Vmid.Model
import Verif.Vmid.Props
import Verif.Vtcr.Arch
import Verif.Vtcr.Lemmas
import Verif.Vtcr.Model
import Verif.Vtcr.Props
import Verif.Vtcr.Spec
import Verif.Weak.Model
import Verif.Weak.Proof
import Verif.Weak.Props
import Verif.Weak.Spec
import Verif.Weak.Spin
import Verif.Weak.SpinProof
import Verif.Weak.SpinProps
import Verif.Weak.Wake
import Verif.Xlat.Build
import Verif.Xlat.Check
import Verif.Xlat.Desc
import Verif.Xlat.Llt
import Verif.Xlat.Map
import Verif.Xlat.Mmu
import Verif.Xlat.MmuProof
import Verif.Xlat.MmuProps
import Verif.Xlat.Model
import Verif.Xlat.PropMap
import Verif.Xlat.PropTable
import Verif.Xlat.Spec
import Verif.Xlat.Tree
