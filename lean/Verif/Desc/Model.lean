import Verif.Desc.Enc
import Verif.Rmm.Step

/-!
# The RMM machine on 64-bit descriptors

The commands of /repo/runtime/rmi/rtt.c and the table functions of
/repo/lib/s2tt/src/s2tt.c, once more, on tables of 64-bit words: every test and
every store is the one the C code performs, through the descriptor helpers of
`Verif.S2tte.Model`.  An assertion that fails is the outcome `none`.

Addresses, sizes, the granule array, realm descriptors and RECs are as in
`Verif.Rmm`; only the contents of translation tables differ.
-/

namespace Verif.Desc

open Rmm (State Plat Ret Rd GSt Walk Content Tlbi upd lk getRd getRec idx sz rootFor dOf Op)
open Rmm (errInput errRealm errRec errRtt validateMapAddr validateStruct validateMap validateEntry)
open S2tte

/-- What the memory of a table is in `CState.s`: only a mark that the granule is a
table; its words are in `CState.tw`. -/
def mark : Content := .table fun _ => .unassigned .empty

/-- The machine state.  `tw g i` is the `i`-th word of table granule `g`. -/
structure CState where
  s : State
  tw : Nat → Nat → W

/-- Outcome of a step. -/
abbrev COut := Option (CState × Ret)

/-- The words of a page: `Page` is the number its bytes spell. -/
def pageWord (p : Rmm.Page) (i : Nat) : W := BitVec.ofNat 64 (p / 2 ^ (64 * i))

/-- Map a table (`buffer_granule_map(g, SLOT_RTT)`). -/
def tabW (c : CState) (g : Nat) : Option (Nat → W) :=
  match c.s.mem g with
  | .table _ => some (c.tw g)
  | _ => none

/-! ## /repo/lib/s2tt/src/s2tt.c -/

/-- The loop of `s2tt_walk_lock_unlock`: s2tt.c:350-373, with
`find_lock_next_level` (268-281) and `find_next_level_idx` (253-266). -/
def walkFromW (c : CState) (lpa2 : Bool) (a tgt : Nat) : Nat → Nat → Option Walk
  | 0, g => some ⟨g, 0, idx 0 a⟩
  | d + 1, g =>
    if d + 1 ≤ tgt then some ⟨g, d + 1, idx (d + 1) a⟩
    else
      match tabW c g with
      | none => none
      | some t =>
        if entryIsTable (t (idx (d + 1) a)) then
          let n := (toPa (t (idx (d + 1) a)) 3 lpa2).toNat
          if c.s.st n = .rtt then walkFromW c lpa2 a tgt d n else none
        else some ⟨g, d + 1, idx (d + 1) a⟩

/-- `s2tt_walk_lock_unlock`: s2tt.c:308-380. -/
def walkW (c : CState) (r : Rd) (a tgt : Nat) : Option Walk :=
  if tgt ≤ r.d0 ∧ a < r.ipaSize ∧ c.s.st r.root = .rtt ∧ (rootFor r a).1 < r.nroots ∧
      c.s.st (rootFor r a).2 = .rtt then
    walkFromW c r.lpa2 a tgt r.d0 (rootFor r a).2
  else none

/-- `s2tt_init_unassigned_empty` and its siblings: s2tt.c:837-907.  Every word of the
table is the same; words from 512 on are not part of the table. -/
def initUniformW (w : W) : Nat → W := fun _ => w

/-- The loop of `s2tt_init_assigned_*`: s2tt.c:929-932, 955-958, 981-984, 1009-1014.
Arguments: constructor, `map_size`, entries left, index, `pa`, table. -/
def initAssignedLoopW (mk : W → Option W) (size : W) : Nat → Nat → W → (Nat → W) → Option (Nat → W)
  | 0, _, _, t => some t
  | n + 1, i, pa, t =>
    match mk pa with
    | none => none
    | some w => initAssignedLoopW mk size n (i + 1) (pa + size) (upd t i w)

/-- `s2tt_init_assigned_destroyed`, `_empty`, `_ram`, `_ns`: s2tt.c:916-1015, with
their assertions on level and alignment; `mk` writes one entry. -/
def initAssignedW (lpa2 : Bool) (mk : W → Option W) (lvl : Int) (pa : W) (t : Nat → W) :
    Option (Nat → W) :=
  if 1 ≤ lvl ∧ lvl ≤ 3 ∧ isAddrLvlAligned lpa2 pa lvl = some true then
    initAssignedLoopW mk (BitVec.ofNat 64 (mapSize lvl)) 512 0 pa t
  else none

/-- `table_is_uniform_block`: s2tt.c:1080-1093. -/
def uniformW (t : Nat → W) (p : W → Bool) : Bool := (List.range 512).all fun i => p (t i)

/-- The loop of `table_maps_block`: s2tt.c:1176-1202.  Arguments: entries left, index. -/
def mapsLoopW (lpa2 : Bool) (t : Nat → W) (lvl : Int) (isx : W → Int → Bool) (ns : Bool)
    (base attrs : W) : Nat → Nat → Option Bool
  | 0, _ => some true
  | n + 1, i =>
    if isx (t i) lvl then
      match s2ttePa lpa2 (t i) lvl with
      | none => none
      | some pa =>
        if pa ≠ base + BitVec.ofNat 64 (i * mapSize lvl) then some false
        else if ns = true ∧ attrs ≠ t i &&& NS_ATTR_MASK then some false
        else mapsLoopW lpa2 t lvl isx ns base attrs n (i + 1)
    else some false

/-- `table_maps_block`: s2tt.c:1143-1205. -/
def mapsW (lpa2 : Bool) (t : Nat → W) (lvl : Int) (isx : W → Int → Bool) (ns : Bool) : Option Bool :=
  if minLevel lpa2 ≤ lvl ∧ lvl ≤ 3 then
    if isx (t 0) lvl then
      match s2ttePa lpa2 (t 0) lvl with
      | none => none
      | some base =>
        match isAddrLvlAligned lpa2 base (lvl - 1) with
        | none => none
        | some false => some false
        | some true => mapsLoopW lpa2 t lvl isx ns base (t 0 &&& NS_ATTR_MASK) 511 1
    else some false
  else none

/-- The scan of `s2tt_skip_non_live_entries`: s2tt.c:1310-1317. -/
def scanW (t : Nat → W) (lvl : Int) : Nat → Nat → Nat
  | 0, i => i
  | n + 1, i => if isLive (t i) lvl then i else scanW t lvl n (i + 1)

/-- `s2tt_skip_non_live_entries`: s2tt.c:1274-1320. -/
def skipW (t : Nat → W) (w : Walk) (a : Nat) : Nat :=
  if isLive (t w.i) (3 - (w.d : Int)) then a
  else a / sz w.d * sz w.d + (scanW t (3 - (w.d : Int)) (511 - w.i) (w.i + 1) - w.i) * sz w.d

/-! ## /repo/runtime/rmi/rtt.c -/

/-- Store a table. -/
def setTab (c : CState) (g : Nat) (t : Nat → W) : CState :=
  { s := { c.s with mem := upd c.s.mem g mark }, tw := upd c.tw g t }

/-- End of a successful `smc_rtt_create`: rtt.c:270-279, with the refcounts added to the parent (`dp`) and the child
(`dc`). -/
def rttCreateStW (c : CState) (rtt wg wi : Nat) (t nt : Nat → W) (v : W) (dp dc : Nat) : CState :=
  let c1 := setTab (setTab c rtt nt) wg (upd t wi v)
  { c1 with s := { c1.s with
      st := upd c.s.st rtt .rtt
      rc := upd (upd c.s.rc rtt (c.s.rc rtt + dc)) wg (upd c.s.rc rtt (c.s.rc rtt + dc) wg + dp) } }

/-- The chain of tests of `smc_rtt_create` on the parent's word: rtt.c:144-268.  `none`: assertion; `inr`: the
entry is a table already; `inl`: the words of the new table, refcounts for parent and child, whether the block is
invalidated in the TLB.  `old` are the words of the granule before. -/
def splitW (lpa2 : Bool) (w : W) (lvl : Int) (old : Nat → W) :
    Option (((Nat → W) × Nat × Nat × Bool) ⊕ Unit) :=
  if isUnassignedEmpty w then some (.inl (initUniformW createUnassignedEmpty, 1, 0, false))
  else if isUnassignedRam w then some (.inl (initUniformW createUnassignedRam, 1, 0, false))
  else if isUnassignedNs w then some (.inl (initUniformW createUnassignedNs, 1, 0, false))
  else if isUnassignedDestroyed w then some (.inl (initUniformW createUnassignedDestroyed, 1, 0, false))
  else if isAssignedDestroyed w (lvl - 1) then
    if 1 < lvl then
      match s2ttePa lpa2 w (lvl - 1) with
      | none => none
      | some pa =>
        (initAssignedW lpa2 (fun p => createAssignedDestroyed lpa2 p lvl) lvl pa old).map
          fun t => .inl (t, 0, 512, false)
    else none
  else if isAssignedEmpty w (lvl - 1) then
    if 1 < lvl then
      match s2ttePa lpa2 w (lvl - 1) with
      | none => none
      | some pa =>
        (initAssignedW lpa2 (fun p => createAssignedEmpty lpa2 p lvl) lvl pa old).map
          fun t => .inl (t, 0, 512, false)
    else none
  else if isAssignedRam w (lvl - 1) then
    if 1 < lvl then
      match s2ttePa lpa2 w (lvl - 1) with
      | none => none
      | some pa =>
        (initAssignedW lpa2 (fun p => createAssignedRam lpa2 p lvl) lvl pa old).map
          fun t => .inl (t, 0, 512, true)
    else none
  else if isAssignedNs w (lvl - 1) then
    if 1 < lvl then
      match s2ttePa lpa2 w (lvl - 1) with
      | none => none
      | some pa =>
        (initAssignedW lpa2
          (fun p => createAssignedNs lpa2 (w &&& NS_ATTR_MASK ||| paToS2tte p lpa2) lvl) lvl pa old).map
          fun t => .inl (t, 1, 0, true)
    else none
  else if isTable w (lvl - 1) then some (.inr ())
  else none

/-- `smc_rtt_create`: rtt.c:78-286. -/
def rttCreateW (P : Plat) (c : CState) (rdA rtt a : Nat) (lvl : Int) : COut :=
  if lk P c.s rtt .delegated && lk P c.s rdA .rd then
    match getRd c.s rdA with
    | none => none
    | some r =>
      if validateStruct r a lvl then
        if r.lpa2 = false ∧ 2 ^ 48 ≤ rtt then some (c, errInput)
        else
          match walkW c r a (dOf lvl + 1) with
          | none => none
          | some w =>
            if w.d = dOf lvl + 1 then
              match tabW c w.g with
              | none => none
              | some t =>
                match splitW r.lpa2 (t w.i) lvl (c.tw rtt) with
                | none => none
                | some (.inr _) => some (c, errRtt (dOf lvl + 1))
                | some (.inl (nt, dp, dc, inval)) =>
                  match createTable r.lpa2 (BitVec.ofNat 64 rtt) (lvl - 1) with
                  | none => none
                  | some v =>
                    some (rttCreateStW c rtt w.g w.i t nt v dp dc,
                      { tlbi := if inval then [⟨r.vmid, a, 4096⟩] else [] })
            else some (c, errRtt w.d)
      else some (c, errInput)
  else some (c, errInput)

/-- The choice of the parent's new word in `smc_rtt_fold`: rtt.c:352-451. -/
def foldW (lpa2 : Bool) (t : Nat → W) (rc : Nat) (lvl : Int) : Option ((W × Nat × Nat) ⊕ Ret) :=
  if rc = 0 then
    if uniformW t isUnassignedDestroyed then some (.inl (createUnassignedDestroyed, 1, 0))
    else if uniformW t isUnassignedEmpty then some (.inl (createUnassignedEmpty, 1, 0))
    else if uniformW t isUnassignedRam then some (.inl (createUnassignedRam, 1, 0))
    else if uniformW t isUnassignedNs then some (.inl (createUnassignedNs, 1, 0))
    else match mapsW lpa2 t lvl isAssignedNs true with
      | none => none
      | some true =>
        if lvl ≤ 1 then some (.inr (errRtt (dOf lvl + 1)))
        else (createAssignedNs lpa2 (t 0) (lvl - 1)).map fun v => .inl (v, 1, 0)
      | some false => some (.inr (errRtt (dOf lvl)))
  else if rc = 512 then
    if lvl ≤ 1 then some (.inr (errRtt (dOf lvl + 1)))
    else match s2ttePa lpa2 (t 0) lvl with
      | none => none
      | some pa =>
        match mapsW lpa2 t lvl isAssignedEmpty false with
        | none => none
        | some true => (createAssignedEmpty lpa2 pa (lvl - 1)).map fun v => .inl (v, 0, 512)
        | some false =>
          match mapsW lpa2 t lvl isAssignedRam false with
          | none => none
          | some true => (createAssignedRam lpa2 pa (lvl - 1)).map fun v => .inl (v, 0, 512)
          | some false =>
            match mapsW lpa2 t lvl isAssignedDestroyed false with
            | none => none
            | some true => (createAssignedDestroyed lpa2 pa (lvl - 1)).map fun v => .inl (v, 0, 512)
            | some false => some (.inr (errRtt (dOf lvl)))
  else some (.inr (errRtt (dOf lvl)))

/-- Replacement of table `x` below word `wi` of `wg` by word `v`: rtt.c:453-472, 567-592. -/
def dropTableStW (c : CState) (x wg wi : Nat) (t : Nat → W) (v : W) (dp dc : Nat) : CState :=
  let c1 := setTab c wg (upd t wi v)
  { c1 with s := { c1.s with
      st := upd c.s.st x .delegated
      mem := upd c1.s.mem x (.page 0)
      rc := upd (upd c.s.rc x (c.s.rc x - dc)) wg (upd c.s.rc x (c.s.rc x - dc) wg - dp) } }

/-- `smc_rtt_fold`: rtt.c:288-481. -/
def rttFoldW (P : Plat) (c : CState) (rdA a : Nat) (lvl : Int) : COut :=
  if lk P c.s rdA .rd then
    match getRd c.s rdA with
    | none => none
    | some r =>
      if validateStruct r a lvl then
        match walkW c r a (dOf lvl + 1) with
        | none => none
        | some w =>
          if w.d = dOf lvl + 1 then
            match tabW c w.g with
            | none => none
            | some t =>
              if isTable (t w.i) (lvl - 1) then
                match s2ttePa r.lpa2 (t w.i) (lvl - 1) with
                | none => none
                | some x =>
                  if lk P c.s x.toNat .rtt then
                    match tabW c x.toNat with
                    | none => none
                    | some tt =>
                      match foldW r.lpa2 tt (c.s.rc x.toNat) lvl with
                      | none => none
                      | some (.inr ret) => some (c, ret)
                      | some (.inl (v, dp, dc)) =>
                        if dp ≤ c.s.rc w.g then
                          some (dropTableStW c x.toNat w.g w.i t v dp dc,
                            { x1 := x.toNat
                              tlbi := if isAssignedRam v (lvl - 1) || isAssignedNs v (lvl - 1)
                                then Rmm.tlbiPages r.vmid a else [⟨r.vmid, a, 4096⟩] })
                        else none
                  else none
              else some (c, errRtt (dOf lvl + 1))
          else some (c, errRtt w.d)
      else some (c, errInput)
  else some (c, errInput)

/-- `smc_rtt_destroy`: rtt.c:483-609. -/
def rttDestroyW (P : Plat) (c : CState) (rdA a : Nat) (lvl : Int) : COut :=
  if lk P c.s rdA .rd then
    match getRd c.s rdA with
    | none => none
    | some r =>
      if validateStruct r a lvl then
        match walkW c r a (dOf lvl + 1) with
        | none => none
        | some w =>
          match tabW c w.g with
          | none => none
          | some t =>
            if w.d ≠ dOf lvl + 1 ∨ isTable (t w.i) (lvl - 1) = false then
              some (c, { errRtt w.d with x2 := skipW t w a })
            else
              match s2ttePa r.lpa2 (t w.i) (lvl - 1) with
              | none => none
              | some x =>
                if lk P c.s x.toNat .rtt then
                  if c.s.rc x.toNat ≠ 0 then some (c, { errRtt (dOf lvl) with x2 := a })
                  else
                    let v := if r.inPar a then createUnassignedDestroyed else createUnassignedNs
                    if 1 ≤ c.s.rc w.g then
                      some (dropTableStW c x.toNat w.g w.i t v 1 0,
                        { x1 := x.toNat
                          x2 := skipW (upd t w.i v) w a
                          tlbi := if r.inPar a then [⟨r.vmid, a, 4096⟩] else Rmm.tlbiPages r.vmid a })
                    else none
                else none
      else some (c, errInput)
  else some (c, errInput)

/-- `smc_rtt_map_unprotected` with `map_unmap_ns(MAP_NS)`: rtt.c:622-748. -/
def rttMapUnprotectedW (P : Plat) (c : CState) (rdA a : Nat) (lvl : Int) (h : W) : COut :=
  if 1 ≤ lvl ∧ lvl ≤ 3 then
    if lk P c.s rdA .rd then
      match getRd c.s rdA with
      | none => none
      | some r =>
        match hostNsIsValid r.lpa2 h lvl with
        | none => none
        | some false => some (c, errInput)
        | some true =>
          if validateMap r a lvl then
            if r.inPar a then some (c, errInput)
            else
              match walkW c r a (dOf lvl) with
              | none => none
              | some w =>
                if w.d = dOf lvl then
                  match tabW c w.g with
                  | none => none
                  | some t =>
                    if isUnassignedNs (t w.i) then
                      match createAssignedNs r.lpa2 h lvl with
                      | none => none
                      | some v => some (setTab c w.g (upd t w.i v), {})
                    else some (c, errRtt (dOf lvl))
                else some (c, errRtt w.d)
          else some (c, errInput)
    else some (c, errInput)
  else some (c, errInput)

/-- `smc_rtt_unmap_unprotected` with `map_unmap_ns(UNMAP_NS)`: rtt.c:622-728, 750-768. -/
def rttUnmapUnprotectedW (P : Plat) (c : CState) (rdA a : Nat) (lvl : Int) : COut :=
  if 1 ≤ lvl ∧ lvl ≤ 3 then
    if lk P c.s rdA .rd then
      match getRd c.s rdA with
      | none => none
      | some r =>
        if validateMap r a lvl then
          if r.inPar a then some (c, errInput)
          else
            match walkW c r a (dOf lvl) with
            | none => none
            | some w =>
              match tabW c w.g with
              | none => none
              | some t =>
                if w.d ≠ dOf lvl ∨ isAssignedNs (t w.i) (3 - (w.d : Int)) = false then
                  some (c, { errRtt w.d with x1 := skipW t w a })
                else
                  some (setTab c w.g (upd t w.i createUnassignedNs),
                    { x1 := skipW (upd t w.i createUnassignedNs) w a, tlbi := [⟨r.vmid, a, 4096⟩] })
        else some (c, errInput)
    else some (c, errInput)
  else some (c, errInput)

/-- The registers x2, x3, x4 of `smc_rtt_read_entry`: rtt.c:808-849. -/
def readRegsW (lpa2 : Bool) (w : W) (lvl : Int) : Option (Nat × Nat × Nat) :=
  if isUnassignedEmpty w then some (0, 0, 0)
  else if isUnassignedRam w then some (0, 0, 1)
  else if isUnassignedDestroyed w then some (0, 0, 2)
  else if isAssignedEmpty w lvl then (s2ttePa lpa2 w lvl).map fun pa => (1, pa.toNat, 0)
  else if isAssignedRam w lvl then (s2ttePa lpa2 w lvl).map fun pa => (1, pa.toNat, 1)
  else if isAssignedDestroyed w lvl then (s2ttePa lpa2 w lvl).map fun pa => (1, pa.toNat, 2)
  else if isUnassignedNs w then some (0, 0, 0)
  else if isAssignedNs w lvl then (hostNs lpa2 w lvl).map fun h => (1, h.toNat, 0)
  else if isTable w lvl then (s2ttePa lpa2 w lvl).map fun pa => (2, pa.toNat, 0)
  else none

/-- `smc_rtt_read_entry`: rtt.c:770-855. -/
def rttReadEntryW (P : Plat) (c : CState) (rdA a : Nat) (lvl : Int) : COut :=
  if lk P c.s rdA .rd then
    match getRd c.s rdA with
    | none => none
    | some r =>
      if validateEntry r a lvl then
        match walkW c r a (dOf lvl) with
        | none => none
        | some w =>
          match tabW c w.g with
          | none => none
          | some t =>
            match readRegsW r.lpa2 (t w.i) (3 - (w.d : Int)) with
            | none => none
            | some (x2, x3, x4) =>
              some (c, { x1 := if w.d = 4 then 2 ^ 64 - 1 else 3 - w.d, x2 := x2, x3 := x3, x4 := x4 })
      else some (c, errInput)
  else some (c, errInput)

/-- End of a successful `data_create`: rtt.c:988-1003. -/
def dataCreateStW (c : CState) (data wg wi : Nat) (t : Nat → W) (v : W) : CState :=
  let c1 := setTab c wg (upd t wi v)
  { c1 with s := { c1.s with st := upd c.s.st data .data, rc := upd c.s.rc wg (c.s.rc wg + 1) } }

/-- `smc_data_create_unknown`: rtt.c:1029-1034, `data_create` (887-1005) with `g_src == NULL`. -/
def dataCreateUnknownW (P : Plat) (c : CState) (rdA data a : Nat) : COut :=
  if lk P c.s data .delegated && lk P c.s rdA .rd then
    match getRd c.s rdA with
    | none => none
    | some r =>
      if r.inPar a && validateMapAddr r a 0 then
        if r.lpa2 = false ∧ 2 ^ 48 ≤ data then some (c, errInput)
        else
          match walkW c r a 0 with
          | none => none
          | some w =>
            if w.d = 0 then
              match tabW c w.g with
              | none => none
              | some t =>
                if isUnassigned (t w.i) then
                  match createAssignedUnchanged r.lpa2 (t w.i) (BitVec.ofNat 64 data) 3 with
                  | none => none
                  | some v => some (dataCreateStW c data w.g w.i t v, {})
                else some (c, errRtt 0)
            else some (c, errRtt w.d)
      else some (c, errInput)
  else some (c, errInput)

/-- `smc_data_create`: rtt.c:1007-1027, with `data_create` (887-1005). -/
def dataCreateW (P : Plat) (c : CState) (rdA data a src flags : Nat) : COut :=
  if flags ≠ 0 ∧ flags ≠ 1 then some (c, errInput)
  else if lk P c.s src .ns then
    if lk P c.s data .delegated && lk P c.s rdA .rd then
      match getRd c.s rdA with
      | none => none
      | some r =>
        if r.state ≠ .new then some (c, errRealm 0)
        else if r.inPar a && validateMapAddr r a 0 then
          if r.lpa2 = false ∧ 2 ^ 48 ≤ data then some (c, errInput)
          else
            match walkW c r a 0 with
            | none => none
            | some w =>
              if w.d = 0 then
                match tabW c w.g with
                | none => none
                | some t =>
                  if isUnassigned (t w.i) then
                    if c.s.pas src = .ns then
                      match c.s.mem src with
                      | .page p =>
                        match createAssignedRam r.lpa2 (BitVec.ofNat 64 data) 3 with
                        | none => none
                        | some v =>
                          let ev := Rmm.MeasEv.data a (if flags = 1 then some p else none)
                          let c1 : CState := { c with s := { c.s with
                            mem := upd (upd c.s.mem data (.page p)) rdA (.rd { r with rim := r.rim ++ [ev] }) } }
                          some (dataCreateStW c1 data w.g w.i t v, {})
                      | _ => none
                    else some ({ c with s := { c.s with mem := upd c.s.mem data (.page 0) } }, errInput)
                  else some (c, errRtt 0)
              else some (c, errRtt w.d)
        else some (c, errInput)
    else some (c, errInput)
  else some (c, errInput)

/-- The chain of tests of `smc_data_destroy`: rtt.c:1079-1101.  The data granule, the new word, whether the page is
invalidated; `inr` when the word has no data granule. -/
def unmapW (lpa2 : Bool) (w : W) : Option ((W × W × Bool) ⊕ Unit) :=
  if isAssignedRam w 3 then (s2ttePa lpa2 w 3).map fun pa => .inl (pa, createUnassignedDestroyed, true)
  else if isAssignedEmpty w 3 then (s2ttePa lpa2 w 3).map fun pa => .inl (pa, createUnassignedEmpty, false)
  else if isAssignedDestroyed w 3 then
    (s2ttePa lpa2 w 3).map fun pa => .inl (pa, createUnassignedDestroyed, false)
  else some (.inr ())

/-- `smc_data_destroy`: rtt.c:1036-1123. -/
def dataDestroyW (P : Plat) (c : CState) (rdA a : Nat) : COut :=
  if lk P c.s rdA .rd then
    match getRd c.s rdA with
    | none => none
    | some r =>
      if r.inPar a && validateMapAddr r a 0 then
        match walkW c r a 0 with
        | none => none
        | some w =>
          match tabW c w.g with
          | none => none
          | some t =>
            if w.d = 0 then
              match unmapW r.lpa2 (t w.i) with
              | none => none
              | some (.inr _) => some (c, { errRtt 0 with x2 := skipW t w a })
              | some (.inl (pa, v, inval)) =>
                if 1 ≤ c.s.rc w.g ∧ lk P c.s pa.toNat .data then
                  let c1 := setTab c w.g (upd t w.i v)
                  some ({ c1 with s := { c1.s with
                      st := upd c.s.st pa.toNat .delegated
                      mem := upd c1.s.mem pa.toNat (.page 0)
                      rc := upd c.s.rc w.g (c.s.rc w.g - 1) } },
                    { x1 := pa.toNat
                      x2 := skipW (upd t w.i v) w a
                      tlbi := if inval then [⟨r.vmid, a, 4096⟩] else [] })
                else none
            else some (c, { errRtt w.d with x2 := skipW t w a })
      else some (c, errInput)
  else some (c, errInput)

/-- `update_ripas`: rtt.c:1136-1205.  Outer `none`: assertion; inner `none`: error; otherwise the word now in the table
and whether the TLB is to be invalidated. -/
def updateRipasW (lpa2 : Bool) (w : W) (lvl : Int) (v : Ripas) (chg : Bool) : Option (Option (W × Bool)) :=
  if hasRipas w lvl = false then some none
  else match v with
  | .ram =>
    if isUnassignedEmpty w then some (some (createUnassignedRam, false))
    else if isUnassignedDestroyed w then
      if chg then some (some (createUnassignedRam, false)) else some none
    else if isAssignedEmpty w lvl then
      match s2ttePa lpa2 w lvl with
      | none => none
      | some pa => (createAssignedRam lpa2 pa lvl).map fun x => some (x, false)
    else if isAssignedDestroyed w lvl then
      if chg then
        match s2ttePa lpa2 w lvl with
        | none => none
        | some pa => (createAssignedRam lpa2 pa lvl).map fun x => some (x, false)
      else some none
    else some (some (w, false))
  | .empty =>
    if isUnassignedRam w then some (some (createUnassignedEmpty, false))
    else if isUnassignedDestroyed w then
      if chg then some (some (createUnassignedEmpty, false)) else some none
    else if isAssignedRam w lvl then
      match s2ttePa lpa2 w lvl with
      | none => none
      | some pa => (createAssignedEmpty lpa2 pa lvl).map fun x => some (x, true)
    else if isAssignedDestroyed w lvl then
      if chg then
        match s2ttePa lpa2 w lvl with
        | none => none
        | some pa => (createAssignedEmpty lpa2 pa lvl).map fun x => some (x, true)
      else some none
    else some (some (w, false))
  | .destroyed => some (some (w, false))

/-- Loop of `smc_rtt_init_ripas`: rtt.c:1275-1298. -/
def initRipasLoopW (d top : Nat) : Nat → Nat → Nat → (Nat → W) → List Rmm.MeasEv →
    (Nat → W) × Nat × List Rmm.MeasEv
  | 0, _, addr, t, log => (t, addr, log)
  | n + 1, i, addr, t, log =>
    if top < addr + sz d then (t, addr, log)
    else if isUnassignedEmpty (t i) then
      initRipasLoopW d top n (i + 1) (addr + sz d) (upd t i createUnassignedRam)
        (log ++ [.ripas addr (addr + sz d)])
    else if isUnassignedRam (t i) then
      initRipasLoopW d top n (i + 1) (addr + sz d) t (log ++ [.ripas addr (addr + sz d)])
    else (t, addr, log)

/-- `smc_rtt_init_ripas`: rtt.c:1207-1313. -/
def rttInitRipasW (P : Plat) (c : CState) (rdA base top : Nat) : COut :=
  if top ≤ base then some (c, errInput)
  else if lk P c.s rdA .rd then
    match getRd c.s rdA with
    | none => none
    | some r =>
      if validateMapAddr r base 0 && validateMapAddr r top 0 && r.inPar base && r.inPar (top - 4096) then
        if r.state ≠ .new then some (c, errRealm 0)
        else
          match walkW c r base 0 with
          | none => none
          | some w =>
            match tabW c w.g with
            | none => none
            | some t =>
              if base / sz w.d * sz w.d ≠ base then some (c, errRtt w.d)
              else
                let res := initRipasLoopW w.d top (Rmm.perTab w.d - w.i) w.i base t r.rim
                let c1 := setTab c w.g res.1
                let c2 : CState := { c1 with s := { c1.s with
                  mem := upd c1.s.mem rdA (.rd { r with rim := res.2.2 }) } }
                if base < res.2.1 then some (c2, { x1 := res.2.1 })
                else some (c2, errRtt w.d)
      else some (c, errInput)
  else some (c, errInput)

/-- Loop of `rtt_set_ripas_range`: rtt.c:1338-1365. -/
def setRipasLoopW (lpa2 : Bool) (vmid d top : Nat) (v : Ripas) (chg : Bool) : Nat → Nat → Nat → (Nat → W) →
    List Tlbi → Option ((Nat → W) × Nat × List Tlbi)
  | 0, _, addr, t, l => some (t, addr, l)
  | n + 1, i, addr, t, l =>
    if top < addr + sz d then some (t, addr, l)
    else match updateRipasW lpa2 (t i) (3 - (d : Int)) v chg with
      | none => none
      | some none => some (t, addr, l)
      | some (some (e, tl)) =>
        setRipasLoopW lpa2 vmid d top v chg n (i + 1) (addr + sz d) (upd t i e)
          (if tl then l ++ [⟨vmid, addr, 4096⟩] else l)

/-- `smc_rtt_set_ripas`: rtt.c:1376-1476. -/
def rttSetRipasW (P : Plat) (c : CState) (rdA recA base top : Nat) : COut :=
  if top ≤ base then some (c, errInput)
  else if lk P c.s rdA .rd && lk P c.s recA .recd then
    if c.s.rc recA ≠ 0 then some (c, errRec)
    else match getRec c.s recA with
    | none => none
    | some q =>
      if q.rd ≠ rdA then some (c, errRec)
      else if base ≠ q.sr.addr ∨ q.sr.top < top then some (c, errInput)
      else match getRd c.s rdA with
      | none => none
      | some r =>
        if validateMapAddr r base 0 then
          match walkW c r base 0 with
          | none => none
          | some w =>
            if validateMapAddr r base w.d then
              match tabW c w.g with
              | none => none
              | some t =>
                if base / sz w.d * sz w.d ≠ base then some (c, errRtt w.d)
                else
                  match setRipasLoopW r.lpa2 r.vmid w.d top q.sr.ripas q.sr.chg (512 - w.i) w.i base t [] with
                  | none => none
                  | some res =>
                    let c1 := setTab c w.g res.1
                    if base < res.2.1 then
                      some ({ c1 with s := { c1.s with
                          mem := upd c1.s.mem recA (.recd { q with sr := { q.sr with addr := res.2.1 } }) } },
                        { x1 := res.2.1, tlbi := res.2.2 })
                    else some (c1, { errRtt w.d with tlbi := res.2.2 })
            else some (c, errRtt w.d)
        else none
  else some (c, errInput)

/-! ## Realms -/

/-- One word of a root table after `init_s2_starting_level`
(/repo/runtime/rmi/realm.c:184-232): words the loop does not reach keep what the granule held. -/
def rootWord (old : W) : Geometry.RootInit → W
  | .untouched => old
  | .empty => createUnassignedEmpty
  | .ns => createUnassignedNs

/-- Words of a granule, before it becomes a table. -/
def oldWords (c : CState) (g : Nat) : Nat → W :=
  match c.s.mem g with
  | .page p => pageWord p
  | _ => c.tw g

/-- State after a successful `smc_realm_create`: realm.c:431-474. -/
def realmCreateStW (c : CState) (rdA : Nat) (q : Rmm.RealmParams) (ts : Nat → Nat → Geometry.RootInit) : CState :=
  { s := { c.s with
      st := upd (fun a => if Rmm.inRange q.rttBase q.p.rttNumStart a then .rtt else c.s.st a) rdA .rd
      mem := upd (fun a => if Rmm.inRange q.rttBase q.p.rttNumStart a then mark else c.s.mem a) rdA
        (.rd { state := .new, recCount := 0, d0 := dOf q.p.rttLevelStart, ipaBits := q.p.s2sz
               nroots := q.p.rttNumStart, root := q.rttBase, vmid := q.vmid
               lpa2 := Features.lpa2Requested q.p, numAux := 16, algo := q.p.algorithm
               rim := [.params q.p], rem := fun _ => [] })
      vmid := upd c.s.vmid q.vmid true }
    tw := fun a => if Rmm.inRange q.rttBase q.p.rttNumStart a
      then fun i => rootWord (oldWords c a i) (ts (Rmm.rangeIdx q.rttBase a) i) else c.tw a }

/-- `smc_realm_create`: realm.c:393-477. -/
def realmCreateW (P : Plat) (c : CState) (rdA pA : Nat) (q : Rmm.RealmParams) : COut :=
  if lk P c.s pA .ns && decide (c.s.pas pA = .ns) then
    match Features.validateRealmParams P.hw q.p with
    | none => none
    | some false => some (c, errInput)
    | some true =>
      if q.vmid < P.vmidCount ∧ c.s.vmid q.vmid = false then
        let c1 : CState := { c with s := { c.s with vmid := upd c.s.vmid q.vmid true } }
        if q.rttBase ≤ rdA ∧ rdA < q.rttBase + q.p.rttNumStart * 4096 then
          some ({ c1 with s := { c1.s with vmid := upd c1.s.vmid q.vmid false } }, errInput)
        else if lk P c.s rdA .delegated &&
            (List.range q.p.rttNumStart).all (fun j => lk P c.s (q.rttBase + 4096 * j) .delegated) then
          match Geometry.initStartingLevel q.p.s2sz q.p.rttLevelStart q.p.rttNumStart with
          | none => none
          | some ts => some (realmCreateStW c rdA q ts, {})
        else some ({ c1 with s := { c1.s with vmid := upd c1.s.vmid q.vmid false } }, errInput)
      else some (c, errInput)
  else some (c, errInput)

/-! ## The memory management unit -/

/-- What the MMU makes of a descriptor (Arm ARM D8.3, 4KB granule). -/
inductive HwDesc where
  | invalid
  | table (pa : Nat)
  | leaf (pa : Nat) (ns : Bool)
  deriving DecidableEq, Repr

/-- Output address field with the low `lsb` bits left out: bits 47:lsb; with 52-bit descriptors bits 49:48 in place
and 51:50 from bits 9:8. -/
def hwOa (lpa2 : Bool) (lsb : Nat) (w : W) : Nat :=
  (w.toNat / 2 ^ lsb % 2 ^ (48 - lsb)) * 2 ^ lsb +
    if lpa2 then (w.toNat / 2 ^ 48 % 4) * 2 ^ 48 + (w.toNat / 2 ^ 8 % 4) * 2 ^ 50 else 0

/-- Decoding of a descriptor found at level `3 - d`.  Bit 0: valid; bit 1: table at levels before 3, page at level 3;
bit 10: access flag; bit 55: Non-secure. -/
def hwDecode (lpa2 : Bool) (d : Nat) (w : W) : HwDesc :=
  if w.getLsbD 0 = false then .invalid
  else if d = 0 then
    if w.getLsbD 1 && w.getLsbD 10 then .leaf (hwOa lpa2 12 w) (w.getLsbD 55) else .invalid
  else if w.getLsbD 1 then .table (hwOa lpa2 12 w)
  else if w.getLsbD 10 then .leaf (hwOa lpa2 (12 + 9 * d) w) (w.getLsbD 55)
  else .invalid

/-- The stage-2 walk of the MMU on the words in memory, from table `g` at depth `d`: physical address and address
space reached, or a fault. -/
def hwWalkW (c : CState) (lpa2 : Bool) (a : Nat) : Nat → Nat → Option (Nat × Bool)
  | 0, g =>
    match tabW c g with
    | none => none
    | some t =>
      match hwDecode lpa2 0 (t (idx 0 a)) with
      | .leaf pa ns => some (pa + a % sz 0, ns)
      | _ => none
  | d + 1, g =>
    match tabW c g with
    | none => none
    | some t =>
      match hwDecode lpa2 (d + 1) (t (idx (d + 1) a)) with
      | .table n => hwWalkW c lpa2 a d n
      | .leaf pa ns => some (pa + a % sz (d + 1), ns)
      | .invalid => none

/-- Stage-2 translation by the MMU. -/
def translateW (c : CState) (r : Rd) (a : Nat) : Option (Nat × Bool) :=
  if a < r.ipaSize then hwWalkW c r.lpa2 a r.d0 (rootFor r a).2 else none

/-- A running REC stores to its memory: as `Rmm.realmWrite`, with the walk done on words. -/
def realmWriteW (c : CState) (recA a p : Nat) : COut :=
  if c.s.st recA = .recd ∧ c.s.rc recA = 1 then
    match getRec c.s recA with
    | none => none
    | some q =>
      match getRd c.s q.rd with
      | none => none
      | some r =>
        match translateW c r a with
        | none => some (c, {})
        | some (pa, ns) =>
          if c.s.pas (pa / 4096 * 4096) = (if ns then .ns else .realm) then
            some ({ c with s := { c.s with mem := upd c.s.mem (pa / 4096 * 4096) (.page p) } }, {})
          else some (c, {})
  else some (c, {})

/-! ## Steps -/

/-- One operation.  Those that neither read nor write a table are the ones of
`Verif.Rmm`. -/
def stepW (P : Plat) (c : CState) : Op → COut
  | .rttCreate rd rtt a lvl => rttCreateW P c rd rtt a lvl
  | .rttFold rd a lvl => rttFoldW P c rd a lvl
  | .rttDestroy rd a lvl => rttDestroyW P c rd a lvl
  | .rttMapUnprotected rd a lvl desc => rttMapUnprotectedW P c rd a lvl desc
  | .rttUnmapUnprotected rd a lvl => rttUnmapUnprotectedW P c rd a lvl
  | .rttReadEntry rd a lvl => rttReadEntryW P c rd a lvl
  | .dataCreateUnknown rd data a => dataCreateUnknownW P c rd data a
  | .dataCreate rd data a src flags => dataCreateW P c rd data a src flags
  | .dataDestroy rd a => dataDestroyW P c rd a
  | .rttInitRipas rd base top => rttInitRipasW P c rd base top
  | .rttSetRipas rd r base top => rttSetRipasW P c rd r base top
  | .realmCreate rd pA q => realmCreateW P c rd pA q
  | .realmWrite r a p => realmWriteW c r a p
  | op => (Rmm.step P c.s op).map fun x => ({ c with s := x.1 }, x.2)

/-- States reachable from boot on words.  At boot there are no tables, so the words are arbitrary. -/
inductive ReachW (P : Plat) : CState → Prop where
  | init {c : CState} : Rmm.Init P c.s → ReachW P c
  | step {c c' op ret} : ReachW P c → stepW P c op = some (c', ret) → ReachW P c'

end Verif.Desc
