import Verif.Rmm.State

/-!
# The RMM machine: RMI commands

One function per RMI command handler, `State → arguments → Out`.
-/

namespace Verif.Rmm

open S2tte (hostNsIsValid toPa NS_ATTR_MASK)

/-! ## Granules: /repo/runtime/rmi/granule.c -/

/-- `smc_granule_delegate`: granule.c:14-37.  EL3 agrees exactly when the granule
protection table has the granule in the Non-secure address space (a granule moved to Secure by the
SPM is refused). -/
def granuleDelegate (P : Plat) (s : State) (a : Nat) : Out :=
  if lk P s a .ns then
    if s.pas a = .ns then
      some ({ s with
        st := upd s.st a .delegated
        mem := upd s.mem a (.page 0)
        pas := upd s.pas a .realm }, {})
    else some (s, errInput)
  else some (s, errInput)

/-- `smc_granule_undelegate`: granule.c:39-62.  EL3 refuses when the granule is
not in the Realm address space, and RMM then panics. -/
def granuleUndelegate (P : Plat) (s : State) (a : Nat) : Out :=
  if lk P s a .delegated then
    if s.pas a = .realm then
      some ({ s with st := upd s.st a .ns, pas := upd s.pas a .ns }, {})
    else none
  else some (s, errInput)

/-! ## Translation tables: /repo/runtime/rmi/rtt.c -/

/-- A fresh child table that repeats the parent's entry: `s2tt_init_unassigned_*`,
`s2tt_init_assigned_*` (/repo/lib/s2tt/src/s2tt.c:837-1015). `d` is the depth of
the child. -/
def splitEntry (e : Entry) (d : Nat) : Nat → Entry := fun i =>
  match e with
  | .unassigned r => .unassigned r
  | .unassignedNs => .unassignedNs
  | .assigned r pa => .assigned r (pa + i * sz d)
  | .assignedNs a pa => .assignedNs a (pa + i * sz d)
  | .table pa => .table pa

/-- The new state of a successful `smc_rtt_create`. `wg`, `wi`, `t` are the parent
table, the index in it and its contents; `dp`/`dc` the refcount added to the parent / child. -/
def rttCreateSt (s : State) (rtt wg wi : Nat) (t : Nat → Entry) (e : Entry) (d dp dc : Nat) : State :=
  { s with
    st := upd s.st rtt .rtt
    mem := upd (upd s.mem rtt (.table (splitEntry e d))) wg (.table (upd t wi (.table rtt)))
    rc := upd (upd s.rc rtt (s.rc rtt + dc)) wg (upd s.rc rtt (s.rc rtt + dc) wg + dp) }

/-- `smc_rtt_create`: rtt.c:78-286. -/
def rttCreate (P : Plat) (s : State) (rdA rtt a : Nat) (lvl : Int) : Out :=
  if lk P s rtt .delegated && lk P s rdA .rd then
    match getRd s rdA with
    | none => none
    | some r =>
      if validateStruct r a lvl then
        if r.lpa2 = false ∧ 2 ^ 48 ≤ rtt then some (s, errInput)
        else
          let d := dOf lvl
          match walk s r a (d + 1) with
          | none => none
          | some w =>
            if w.d = d + 1 then
              match getTab s w.g with
              | none => none
              | some t =>
                match t w.i with
                | .unassigned rp =>
                  some (rttCreateSt s rtt w.g w.i t (.unassigned rp) d 1 0, {})
                | .unassignedNs =>
                  some (rttCreateSt s rtt w.g w.i t .unassignedNs d 1 0, {})
                | .assigned rp pa =>
                  -- `assert(level > S2TT_MIN_BLOCK_LEVEL)`
                  if d < 2 then
                    some (rttCreateSt s rtt w.g w.i t (.assigned rp pa) d 0 512,
                      { tlbi := if rp = .ram then [⟨r.vmid, a, 4096⟩] else [] })
                  else none
                | .assignedNs at_ pa =>
                  if d < 2 then
                    some (rttCreateSt s rtt w.g w.i t (.assignedNs at_ pa) d 1 0,
                      { tlbi := [⟨r.vmid, a, 4096⟩] })
                  else none
                | .table _ => some (s, errRtt (d + 1))
            else some (s, errRtt w.d)
      else some (s, errInput)
  else some (s, errInput)

/-- `table_is_uniform_block`: s2tt.c:1080-1093: every entry equals `e`. -/
def uniform (t : Nat → Entry) (e : Entry) : Bool := (List.range 512).all fun i => decide (t i = e)

/-- `table_maps_block` for the assigned kinds: s2tt.c:1143-1205, for a table at
depth `d`. -/
def mapsAssigned (t : Nat → Entry) (rp : Ripas) (d : Nat) : Option Nat :=
  match t 0 with
  | .assigned r0 pa =>
    if r0 = rp ∧ pa % sz (d + 1) = 0 ∧
        ((List.range 512).all fun i => decide (t i = .assigned rp (pa + i * sz d))) = true then some pa
    else none
  | _ => none

/-- `table_maps_block` for unprotected mappings (`check_ns_attrs`). -/
def mapsNs (t : Nat → Entry) (d : Nat) : Option (BitVec 64 × Nat) :=
  match t 0 with
  | .assignedNs at_ pa =>
    if pa % sz (d + 1) = 0 ∧
        ((List.range 512).all fun i => decide (t i = .assignedNs at_ (pa + i * sz d))) = true then
      some (at_, pa)
    else none
  | _ => none

/-- What the fold of child table `t` (depth `d`, refcount `rc`) would put in the
parent: `inl` the new entry with the amounts taken off the refcount of the parent and of
the child, `inr` the error; rtt.c:352-451. -/
def foldEntry (t : Nat → Entry) (rc d : Nat) : Option ((Entry × Nat × Nat) ⊕ Ret) :=
  if rc = 0 then
    if uniform t (.unassigned .destroyed) then some (.inl (.unassigned .destroyed, 1, 0))
    else if uniform t (.unassigned .empty) then some (.inl (.unassigned .empty, 1, 0))
    else if uniform t (.unassigned .ram) then some (.inl (.unassigned .ram, 1, 0))
    else if uniform t .unassignedNs then some (.inl (.unassignedNs, 1, 0))
    else match mapsNs t d with
      | some (at_, pa) =>
        if d < 2 then some (.inl (.assignedNs at_ pa, 1, 0)) else some (.inr (errRtt (d + 1)))
      | none => some (.inr (errRtt d))
  else if rc = 512 then
    if d < 2 then
      -- `s2tte_pa(table[0])` asserts that the entry has an address
      if (t 0).live = false then none
      else match mapsAssigned t .empty d with
      | some pa => some (.inl (.assigned .empty pa, 0, 512))
      | none =>
        match mapsAssigned t .ram d with
        | some pa => some (.inl (.assigned .ram pa, 0, 512))
        | none =>
          match mapsAssigned t .destroyed d with
          | some pa => some (.inl (.assigned .destroyed pa, 0, 512))
          | none => some (.inr (errRtt d))
    else some (.inr (errRtt (d + 1)))
  else some (.inr (errRtt d))

/-- State after a table `c` below entry `wi` of `wg` is replaced by entry `e`:
the common end of `smc_rtt_fold` and `smc_rtt_destroy`. -/
def dropTableSt (s : State) (c wg wi : Nat) (t : Nat → Entry) (e : Entry) (dp dc : Nat) : State :=
  { s with
    st := upd s.st c .delegated
    mem := upd (upd s.mem wg (.table (upd t wi e))) c (.page 0)
    rc := upd (upd s.rc c (s.rc c - dc)) wg (upd s.rc c (s.rc c - dc) wg - dp) }

/-- TLB invalidation instructions of `s2tt_invalidate_pages_in_block`: s2tt.c:177-181:
one instruction for each 4KB page of a 2MB block. -/
def tlbiPages (vmid a : Nat) : List Tlbi :=
  (List.range 512).map fun i => ⟨vmid, a + i * 4096, 4096⟩

/-- Entries that make `smc_rtt_fold` invalidate every page: rtt.c:461-466. -/
def Entry.valid : Entry → Bool
  | .assigned .ram _ => true
  | .assignedNs _ _ => true
  | _ => false

/-- `smc_rtt_fold`: rtt.c:288-481. -/
def rttFold (P : Plat) (s : State) (rdA a : Nat) (lvl : Int) : Out :=
  if lk P s rdA .rd then
    match getRd s rdA with
    | none => none
    | some r =>
      if validateStruct r a lvl then
        let d := dOf lvl
        match walk s r a (d + 1) with
        | none => none
        | some w =>
          if w.d = d + 1 then
            match getTab s w.g with
            | none => none
            | some t =>
              match t w.i with
              | .table c =>
                if lk P s c .rtt then
                  match getTab s c with
                  | none => none
                  | some tt =>
                    match foldEntry tt (s.rc c) d with
                    | none => none
                    | some (.inr ret) => some (s, ret)
                    | some (.inl (e, dp, dc)) =>
                      -- refcount underflow is asserted against
                      if dp ≤ s.rc w.g then
                        some (dropTableSt s c w.g w.i t e dp dc,
                          { x1 := c
                            tlbi := if e.valid then tlbiPages r.vmid a else [⟨r.vmid, a, 4096⟩] })
                      else none
                else none
              | _ => some (s, errRtt (d + 1))
          else some (s, errRtt w.d)
      else some (s, errInput)
  else some (s, errInput)

/-- The scan of `s2tt_skip_non_live_entries`: s2tt.c:1310-1317; `n` entries are
left before index 512. -/
def scan (t : Nat → Entry) : Nat → Nat → Nat
  | 0, i => i
  | n + 1, i => if (t i).live then i else scan t n (i + 1)

/-- `s2tt_skip_non_live_entries`: s2tt.c:1274-1320.  The scan always runs to index 512,
also for the 16-entry table of level -1, where the granule holds zeroes above. -/
def skipNonLive (t : Nat → Entry) (w : Walk) (a : Nat) : Nat :=
  if (t w.i).live then a
  else a / sz w.d * sz w.d + (scan t (511 - w.i) (w.i + 1) - w.i) * sz w.d

/-- `smc_rtt_destroy`: rtt.c:483-609. -/
def rttDestroy (P : Plat) (s : State) (rdA a : Nat) (lvl : Int) : Out :=
  if lk P s rdA .rd then
    match getRd s rdA with
    | none => none
    | some r =>
      if validateStruct r a lvl then
        let d := dOf lvl
        match walk s r a (d + 1) with
        | none => none
        | some w =>
          match getTab s w.g with
          | none => none
          | some t =>
            if w.d = d + 1 then
              match t w.i with
              | .table c =>
                if lk P s c .rtt then
                  if s.rc c = 0 then
                    if 1 ≤ s.rc w.g then
                      let e := if r.inPar a then .unassigned .destroyed else .unassignedNs
                      some (dropTableSt s c w.g w.i t e 1 0,
                        { x1 := c
                          x2 := skipNonLive (upd t w.i e) w a
                          tlbi := if r.inPar a then [⟨r.vmid, a, 4096⟩] else tlbiPages r.vmid a })
                    else none
                  else some (s, { errRtt d with x2 := a })
                else none
              | _ => some (s, { errRtt w.d with x2 := skipNonLive t w a })
            else some (s, { errRtt w.d with x2 := skipNonLive t w a })
      else some (s, errInput)
  else some (s, errInput)

/-- The entry `s2tte_create_assigned_ns` makes of a valid host descriptor
(`Verif.S2tte.C12_host_descriptor_roundtrip`): its attribute bits and output
address. -/
def hostEntry (r : Rd) (h : BitVec 64) (lvl : Int) : Entry :=
  .assignedNs (h &&& NS_ATTR_MASK) (toPa h lvl r.lpa2).toNat

/-- `smc_rtt_map_unprotected` with `map_unmap_ns(MAP_NS)`: rtt.c:622-748.
`host_ns_s2tte_is_valid` asserts that the level is between 1 and 3, which
smc_rtt_map_unprotected checked. -/
def rttMapUnprotected (P : Plat) (s : State) (rdA a : Nat) (lvl : Int) (h : BitVec 64) : Out :=
  if 1 ≤ lvl ∧ lvl ≤ 3 then
    if lk P s rdA .rd then
      match getRd s rdA with
      | none => none
      | some r =>
        match hostNsIsValid r.lpa2 h lvl with
        | none => none
        | some false => some (s, errInput)
        | some true =>
          if validateMap r a lvl then
            if r.inPar a then some (s, errInput)
            else
              let d := dOf lvl
              match walk s r a d with
              | none => none
              | some w =>
                if w.d = d then
                  match getTab s w.g with
                  | none => none
                  | some t =>
                    match t w.i with
                    | .unassignedNs =>
                      some ({ s with mem := upd s.mem w.g (.table (upd t w.i (hostEntry r h lvl))) }, {})
                    | _ => some (s, errRtt d)
                else some (s, errRtt w.d)
          else some (s, errInput)
    else some (s, errInput)
  else some (s, errInput)

/-- `smc_rtt_unmap_unprotected` with `map_unmap_ns(UNMAP_NS)`: rtt.c:622-728, 750-768. -/
def rttUnmapUnprotected (P : Plat) (s : State) (rdA a : Nat) (lvl : Int) : Out :=
  if 1 ≤ lvl ∧ lvl ≤ 3 then
    if lk P s rdA .rd then
      match getRd s rdA with
      | none => none
      | some r =>
        if validateMap r a lvl then
          if r.inPar a then some (s, errInput)
          else
            let d := dOf lvl
            match walk s r a d with
            | none => none
            | some w =>
              match getTab s w.g with
              | none => none
              | some t =>
                if w.d = d then
                  match t w.i with
                  | .assignedNs _ _ =>
                    some ({ s with mem := upd s.mem w.g (.table (upd t w.i .unassignedNs)) },
                      { x1 := skipNonLive (upd t w.i .unassignedNs) w a, tlbi := [⟨r.vmid, a, 4096⟩] })
                  | _ => some (s, { errRtt w.d with x1 := skipNonLive t w a })
                else some (s, { errRtt w.d with x1 := skipNonLive t w a })
        else some (s, errInput)
    else some (s, errInput)
  else some (s, errInput)

/-- What `smc_rtt_read_entry` reports for an entry: x2 (0 unassigned, 1 assigned, 2
table), x3 (descriptor/address), x4 (RIPAS); rtt.c:808-849.  The descriptor of an unprotected mapping is
the host's own (`C12_host_descriptor_roundtrip`): attribute bits and output address. -/
def readRegs (r : Rd) : Entry → Nat × Nat × Nat
  | .unassigned rp => (0, 0, rp.code)
  | .unassignedNs => (0, 0, 0)
  | .assigned rp pa => (1, pa, rp.code)
  | .assignedNs at_ pa => (1, (at_ ||| S2tte.paToS2tte (BitVec.ofNat 64 pa) r.lpa2).toNat, 0)
  | .table pa => (2, pa, 0)

/-- `smc_rtt_read_entry`: rtt.c:770-855; x1 is the level as an `unsigned long`. -/
def rttReadEntry (P : Plat) (s : State) (rdA a : Nat) (lvl : Int) : Out :=
  if lk P s rdA .rd then
    match getRd s rdA with
    | none => none
    | some r =>
      if validateEntry r a lvl then
        match walk s r a (dOf lvl) with
        | none => none
        | some w =>
          match getTab s w.g with
          | none => none
          | some t =>
            some (s, {
              x1 := if w.d = 4 then 2 ^ 64 - 1 else 3 - w.d
              x2 := (readRegs r (t w.i)).1
              x3 := (readRegs r (t w.i)).2.1
              x4 := (readRegs r (t w.i)).2.2 })
      else some (s, errInput)
  else some (s, errInput)

/-! ## Data granules -/

/-- State after `data` becomes the backing of entry `wi` of `wg`. -/
def dataCreateSt (s : State) (data wg wi : Nat) (t : Nat → Entry) (rp : Ripas) : State :=
  { s with
    st := upd s.st data .data
    mem := upd s.mem wg (.table (upd t wi (.assigned rp data)))
    rc := upd s.rc wg (s.rc wg + 1) }

/-- `smc_data_create_unknown`: rtt.c:1029-1034, that is `data_create` (887-1005) with
`g_src == NULL`. -/
def dataCreateUnknown (P : Plat) (s : State) (rdA data a : Nat) : Out :=
  if lk P s data .delegated && lk P s rdA .rd then
    match getRd s rdA with
    | none => none
    | some r =>
      if r.inPar a && validateMapAddr r a 0 then
        if r.lpa2 = false ∧ 2 ^ 48 ≤ data then some (s, errInput)
        else
          match walk s r a 0 with
          | none => none
          | some w =>
            if w.d = 0 then
              match getTab s w.g with
              | none => none
              | some t =>
                match t w.i with
                | .unassigned rp => some (dataCreateSt s data w.g w.i t rp, {})
                | _ => some (s, errRtt 0)
            else some (s, errRtt w.d)
      else some (s, errInput)
  else some (s, errInput)

/-- `smc_data_create`: rtt.c:1007-1027, with `data_create` (887-1005).  `flags` is 0 (`RMI_NO_MEASURE_CONTENT`) or 1
(`RMI_MEASURE_CONTENT`).  The copy from `src` fails exactly when the granule protection table has `src`
outside the Non-secure address space.  A failing copy zeroes the data granule. -/
def dataCreate (P : Plat) (s : State) (rdA data a src flags : Nat) : Out :=
  if flags ≠ 0 ∧ flags ≠ 1 then some (s, errInput)
  else if lk P s src .ns then
    if lk P s data .delegated && lk P s rdA .rd then
      match getRd s rdA with
      | none => none
      | some r =>
        if r.state ≠ .new then some (s, errRealm 0)
        else if r.inPar a && validateMapAddr r a 0 then
          if r.lpa2 = false ∧ 2 ^ 48 ≤ data then some (s, errInput)
          else
            match walk s r a 0 with
            | none => none
            | some w =>
              if w.d = 0 then
                match getTab s w.g with
                | none => none
                | some t =>
                  match t w.i with
                  | .unassigned _ =>
                    if s.pas src = .ns then
                      match s.mem src with
                      | .page p =>
                        let ev := MeasEv.data a (if flags = 1 then some p else none)
                        let s1 := { s with
                          mem := upd (upd s.mem data (.page p)) rdA (.rd { r with rim := r.rim ++ [ev] }) }
                        some (dataCreateSt s1 data w.g w.i t .ram, {})
                      | _ => none
                    else some ({ s with mem := upd s.mem data (.page 0) }, errInput)
                  | _ => some (s, errRtt 0)
              else some (s, errRtt w.d)
        else some (s, errInput)
    else some (s, errInput)
  else some (s, errInput)

/-- `smc_data_destroy`: rtt.c:1036-1123. -/
def dataDestroy (P : Plat) (s : State) (rdA a : Nat) : Out :=
  if lk P s rdA .rd then
    match getRd s rdA with
    | none => none
    | some r =>
      if r.inPar a && validateMapAddr r a 0 then
        match walk s r a 0 with
        | none => none
        | some w =>
          match getTab s w.g with
          | none => none
          | some t =>
            if w.d = 0 then
              match t w.i with
              | .assigned rp pa =>
                let e := Entry.unassigned (if rp = .empty then .empty else .destroyed)
                if 1 ≤ s.rc w.g ∧ lk P s pa .data then
                  some ({ s with
                    st := upd s.st pa .delegated
                    mem := upd (upd s.mem w.g (.table (upd t w.i e))) pa (.page 0)
                    rc := upd s.rc w.g (s.rc w.g - 1) },
                    { x1 := pa
                      x2 := skipNonLive (upd t w.i e) w a
                      tlbi := if rp = .ram then [⟨r.vmid, a, 4096⟩] else [] })
                else none
              | _ => some (s, { errRtt 0 with x2 := skipNonLive t w a })
            else some (s, { errRtt w.d with x2 := skipNonLive t w a })
      else some (s, errInput)
  else some (s, errInput)

/-! ## RIPAS -/

/-- `update_ripas`: rtt.c:1136-1205; `none` for an error, otherwise the new entry
and whether a TLB invalidation is needed. -/
def updateRipas (e : Entry) (v : Ripas) (chg : Bool) : Option (Entry × Bool) :=
  match e with
  | .unassigned r =>
    match v, r with
    | .ram, .empty => some (.unassigned .ram, false)
    | .ram, .destroyed => if chg then some (.unassigned .ram, false) else none
    | .ram, .ram => some (e, false)
    | .empty, .ram => some (.unassigned .empty, false)
    | .empty, .destroyed => if chg then some (.unassigned .empty, false) else none
    | .empty, .empty => some (e, false)
    | .destroyed, _ => some (e, false)
  | .assigned r pa =>
    match v, r with
    | .ram, .empty => some (.assigned .ram pa, false)
    | .ram, .destroyed => if chg then some (.assigned .ram pa, false) else none
    | .ram, .ram => some (e, false)
    | .empty, .ram => some (.assigned .empty pa, true)
    | .empty, .destroyed => if chg then some (.assigned .empty pa, true) else none
    | .empty, .empty => some (e, false)
    | .destroyed, _ => some (e, false)
  | _ => none

/-- Number of entries of a table: 16 at level -1, else 512. -/
def perTab (d : Nat) : Nat := if d = 4 then 16 else 512

/-- Loop of `smc_rtt_init_ripas`: rtt.c:1275-1298.  Arguments: entries left, index,
address, table, measurement log. -/
def initLoop (d top : Nat) : Nat → Nat → Nat → (Nat → Entry) → List MeasEv →
    (Nat → Entry) × Nat × List MeasEv
  | 0, _, addr, t, log => (t, addr, log)
  | n + 1, i, addr, t, log =>
    if top < addr + sz d then (t, addr, log)
    else match t i with
      | .unassigned .empty =>
        initLoop d top n (i + 1) (addr + sz d) (upd t i (.unassigned .ram))
          (log ++ [.ripas addr (addr + sz d)])
      | .unassigned .ram =>
        initLoop d top n (i + 1) (addr + sz d) t (log ++ [.ripas addr (addr + sz d)])
      | _ => (t, addr, log)

/-- `smc_rtt_init_ripas`: rtt.c:1207-1313.  `top - GRANULE_SIZE` cannot wrap: when
it would, `top` is 0 and `top <= base`. -/
def rttInitRipas (P : Plat) (s : State) (rdA base top : Nat) : Out :=
  if top ≤ base then some (s, errInput)
  else if lk P s rdA .rd then
    match getRd s rdA with
    | none => none
    | some r =>
      if validateMapAddr r base 0 && validateMapAddr r top 0 && r.inPar base && r.inPar (top - 4096) then
        if r.state ≠ .new then some (s, errRealm 0)
        else
          match walk s r base 0 with
          | none => none
          | some w =>
            match getTab s w.g with
            | none => none
            | some t =>
              if base / sz w.d * sz w.d ≠ base then some (s, errRtt w.d)
              else
                let res := initLoop w.d top (perTab w.d - w.i) w.i base t r.rim
                let s' := { s with
                  mem := upd (upd s.mem w.g (.table res.1)) rdA (.rd { r with rim := res.2.2 }) }
                if base < res.2.1 then some (s', { x1 := res.2.1 })
                else some (s', errRtt w.d)
      else some (s, errInput)
  else some (s, errInput)

/-- Loop of `rtt_set_ripas_range`: rtt.c:1338-1365. -/
def setLoop (vmid d top : Nat) (v : Ripas) (chg : Bool) : Nat → Nat → Nat → (Nat → Entry) →
    List Tlbi → (Nat → Entry) × Nat × List Tlbi
  | 0, _, addr, t, l => (t, addr, l)
  | n + 1, i, addr, t, l =>
    if top < addr + sz d then (t, addr, l)
    else match updateRipas (t i) v chg with
      | none => (t, addr, l)
      | some (e, tl) =>
        setLoop vmid d top v chg n (i + 1) (addr + sz d) (upd t i e)
          (if tl then l ++ [⟨vmid, addr, 4096⟩] else l)

/-- `smc_rtt_set_ripas`: rtt.c:1376-1476. -/
def rttSetRipas (P : Plat) (s : State) (rdA recA base top : Nat) : Out :=
  if top ≤ base then some (s, errInput)
  else if lk P s rdA .rd && lk P s recA .recd then
    if s.rc recA ≠ 0 then some (s, errRec)
    else match getRec s recA with
    | none => none
    | some c =>
      if c.rd ≠ rdA then some (s, errRec)
      else if base ≠ c.sr.addr ∨ c.sr.top < top then some (s, errInput)
      else match getRd s rdA with
      | none => none
      | some r =>
        -- `assert(validate_map_addr(base, S2TT_PAGE_LEVEL, rd))`
        if validateMapAddr r base 0 then
          match walk s r base 0 with
          | none => none
          | some w =>
            if validateMapAddr r base w.d then
              match getTab s w.g with
              | none => none
              | some t =>
                if base / sz w.d * sz w.d ≠ base then some (s, errRtt w.d)
                else
                  let res := setLoop r.vmid w.d top c.sr.ripas c.sr.chg (512 - w.i) w.i base t []
                  if base < res.2.1 then
                    some ({ s with
                      mem := upd (upd s.mem w.g (.table res.1)) recA
                        (.recd { c with sr := { c.sr with addr := res.2.1 } }) },
                      { x1 := res.2.1, tlbi := res.2.2 })
                  else
                    some ({ s with mem := upd s.mem w.g (.table res.1) },
                      { errRtt w.d with tlbi := res.2.2 })
            else some (s, errRtt w.d)
        else none
  else some (s, errInput)

/-! ## Realms: /repo/runtime/rmi/realm.c -/

/-- `smc_realm_activate`: realm.c:25-50. -/
def realmActivate (P : Plat) (s : State) (rdA : Nat) : Out :=
  if lk P s rdA .rd then
    match getRd s rdA with
    | none => none
    | some r =>
      if r.state = .new then
        some ({ s with mem := upd s.mem rdA (.rd { r with state := .active }) }, {})
      else some (s, errRealm 0)
  else some (s, errInput)

/-- Realm parameters: the validated part and the rest read by `smc_realm_create`. -/
structure RealmParams where
  p : Features.Params
  rttBase : Nat
  vmid : Nat

/-- The starting-level entries `init_s2_starting_level` leaves; entries it does not
touch keep the zero word of the scrubbed granule, which is UNASSIGNED/EMPTY
(`S2TTE_INVALID_HIPAS_UNASSIGNED | S2TTE_INVALID_RIPAS_EMPTY` is 0). -/
def rootEntry : Geometry.RootInit → Entry
  | .untouched => .unassigned .empty
  | .empty => .unassigned .empty
  | .ns => .unassignedNs

/-- `a` is one of the `n` consecutive granules from `base`: the granules named by
`g_rtt + i`.  The granule array follows addresses (C43). -/
def inRange (base n a : Nat) : Bool := (List.range n).any fun j => a == base + 4096 * j

/-- Index of granule `a` in the range. -/
def rangeIdx (base a : Nat) : Nat := (a - base) / 4096

/-- State after a successful `smc_realm_create`: realm.c:431-474. -/
def realmCreateSt (s : State) (rdA : Nat) (q : RealmParams) (ts : Nat → Nat → Geometry.RootInit) : State :=
  { s with
    st := upd (fun a => if inRange q.rttBase q.p.rttNumStart a then .rtt else s.st a) rdA .rd
    mem := upd (fun a => if inRange q.rttBase q.p.rttNumStart a
        then .table (fun i => rootEntry (ts (rangeIdx q.rttBase a) i)) else s.mem a) rdA
      (.rd { state := .new, recCount := 0, d0 := dOf q.p.rttLevelStart, ipaBits := q.p.s2sz
             nroots := q.p.rttNumStart, root := q.rttBase, vmid := q.vmid
             lpa2 := Features.lpa2Requested q.p, numAux := 16, algo := q.p.algorithm
             rim := [.params q.p], rem := fun _ => [] })
    vmid := upd s.vmid q.vmid true }

/-- `smc_realm_create`: realm.c:393-477.  `q` is the content of the parameters page;
it can be read when the page is an NS granule that EL3 also has as Non-secure.
`vmid_reserve` (/repo/lib/arch/src/vmid.c:28-50) happens before, and is undone by, the
later checks.  `rtt_base + n * GRANULE_SIZE` wraps only when `rtt_base` itself is not
a tracked address, and the answer is then the same. -/
def realmCreate (P : Plat) (s : State) (rdA pA : Nat) (q : RealmParams) : Out :=
  if lk P s pA .ns && decide (s.pas pA = .ns) then
    match Features.validateRealmParams P.hw q.p with
    | none => none
    | some false => some (s, errInput)
    | some true =>
      if q.vmid < P.vmidCount ∧ s.vmid q.vmid = false then
        let s1 := { s with vmid := upd s.vmid q.vmid true }
        if q.rttBase ≤ rdA ∧ rdA < q.rttBase + q.p.rttNumStart * 4096 then
          some ({ s1 with vmid := upd s1.vmid q.vmid false }, errInput)
        else if lk P s rdA .delegated &&
            (List.range q.p.rttNumStart).all (fun j => lk P s (q.rttBase + 4096 * j) .delegated) then
          match Geometry.initStartingLevel q.p.s2sz q.p.rttLevelStart q.p.rttNumStart with
          | none => none
          | some ts => some (realmCreateSt s rdA q ts, {})
        else some ({ s1 with vmid := upd s1.vmid q.vmid false }, errInput)
      else some (s, errInput)
  else some (s, errInput)

/-- State after a successful `smc_realm_destroy`: realm.c:533-546. -/
def realmDestroySt (s : State) (rdA : Nat) (r : Rd) : State :=
  { s with
    st := upd (fun a => if inRange r.root r.nroots a then .delegated else s.st a) rdA .delegated
    mem := upd (fun a => if inRange r.root r.nroots a then .page 0 else s.mem a) rdA (.page 0)
    vmid := upd s.vmid r.vmid false }

/-- `smc_realm_destroy`: realm.c:500-549. -/
def realmDestroy (P : Plat) (s : State) (rdA : Nat) : Out :=
  if lk P s rdA .rd then
    if s.rc rdA = 0 then
      match getRd s rdA with
      | none => none
      | some r =>
        if (List.range r.nroots).all (fun j => decide (s.st (r.root + 4096 * j) = .rtt)) then
          if (List.range r.nroots).all (fun j => decide (s.rc (r.root + 4096 * j) = 0)) then
            if r.vmid < P.vmidCount then some (realmDestroySt s rdA r, {}) else none
          else some (s, errRealm 0)
        else none
    else some (s, errRealm 0)
  else some (s, errInput)

/-! ## RECs: /repo/runtime/rmi/rec.c -/

/-- `struct rmi_rec_params`. -/
structure RecParams where
  flags : BitVec 64
  mpidr : BitVec 64
  pc : BitVec 64
  gprs : Nat → BitVec 64
  /-- `num_aux`, an `unsigned long`: /repo/lib/smc/include/smc-rmi.h:689 -/
  numAux64 : BitVec 64
  aux : Nat → Nat

/-- `num_rec_aux = (unsigned int)rec_params.num_aux`: rec.c:278.  The upper half of the field is lost. -/
def RecParams.numAux (q : RecParams) : Nat := (q.numAux64.setWidth 32).toNat

/-- The auxiliary granules named by the parameters. -/
def RecParams.auxList (q : RecParams) : List Nat := (List.range q.numAux).map q.aux

/-- The loop that takes the auxiliary granules: rec.c:283-298.  Result: new state,
granules taken, whether all were taken. -/
def takeAux (P : Plat) : State → List Nat → State × List Nat × Bool
  | s, [] => (s, [], true)
  | s, a :: l =>
    if lk P s a .delegated then
      let r := takeAux P { s with st := upd s.st a .recAux } l
      (r.1, a :: r.2.1, r.2.2)
    else (s, [], false)

/-- `free_rec_aux_granules(.., false)`: rec.c:178-191. -/
def freeAux (s : State) (l : List Nat) : State :=
  { s with st := fun a => if a ∈ l then .delegated else s.st a }

/-- `free_rec_aux_granules(.., true)`. -/
def scrubAux (s : State) (l : List Nat) : State :=
  { s with
    st := fun a => if a ∈ l then .delegated else s.st a
    mem := fun a => if a ∈ l then .page 0 else s.mem a }

/-- The new REC: rec.c:343-367. Registers above the eight given stay zero. -/
def newRec (rdA idx_ : Nat) (q : RecParams) (aux : List Nat) : Rec :=
  { rd := rdA, idx := idx_, runnable := q.flags.getLsbD 0, aux := aux
    regs := fun i => if i < 8 then q.gprs i else 0
    pc := q.pc
    sr := { base := 0, top := 0, addr := 0, ripas := .empty, chg := false, reject := false }
    psciPending := false }

/-- State after a successful `smc_rec_create` (from the state in which the auxiliary
granules are taken): rec.c:310-398. -/
def recCreateSt (s : State) (rdA recA : Nat) (r : Rd) (q : RecParams) (aux : List Nat) : State :=
  { s with
    st := upd s.st recA .recd
    mem := upd (upd s.mem recA (.recd (newRec rdA r.recCount q aux))) rdA
      (.rd { r with
        recCount := r.recCount + 1
        rim := if q.flags.getLsbD 0
          then r.rim ++ [.recd ((List.range 8).map q.gprs) q.pc q.flags] else r.rim })
    rc := upd s.rc rdA (s.rc rdA + 1) }

/-- `smc_rec_create`: rec.c:247-399.  When an auxiliary granule cannot be taken and
others were taken before it, those are unlocked a second time (rec.c:289-292):
`granule_unlock` asserts that the granule is locked. -/
def recCreate (P : Plat) (s : State) (rdA recA pA : Nat) (q : RecParams) : Out :=
  if lk P s pA .ns && decide (s.pas pA = .ns) then
    if 16 < q.numAux then some (s, errInput)
    else
      let tk := takeAux P s q.auxList
      let s1 := tk.1
      if tk.2.2 = false then
        if P.asserts ∧ tk.2.1 ≠ [] then none
        else some (freeAux s1 tk.2.1, errInput)
      else if lk P s1 recA .delegated && lk P s1 rdA .rd then
        if s1.rc rdA = 1023 then some (freeAux s1 q.auxList, errRealm 0)
        else
          match getRd s1 rdA with
          | none => none
          | some r =>
            if r.state ≠ .new then some (freeAux s1 q.auxList, errRealm 0)
            else if Mpidr.isValid q.mpidr = false ∨ (Mpidr.toIdx q.mpidr).toNat ≠ r.recCount then
              some (freeAux s1 q.auxList, errInput)
            else if q.numAux ≠ r.numAux then some (freeAux s1 q.auxList, errInput)
            else some (recCreateSt s1 rdA recA r q q.auxList, {})
      else some (freeAux s1 q.auxList, errInput)
  else some (s, errInput)

/-- `smc_rec_destroy`: rec.c:401-444. -/
def recDestroy (P : Plat) (s : State) (recA : Nat) : Out :=
  if lk P s recA .recd then
    if s.rc recA = 0 then
      match getRec s recA with
      | none => none
      | some c =>
        if c.aux.all (fun a => decide (s.st a = .recAux)) && decide (1 ≤ s.rc c.rd) then
          let s1 := scrubAux s c.aux
          some ({ s1 with
            st := upd s1.st recA .delegated
            mem := upd s1.mem recA (.page 0)
            rc := upd s1.rc c.rd (s1.rc c.rd - 1) }, {})
        else none
    else some (s, errRec)
  else some (s, errInput)

/-- `smc_rec_aux_count`: rec.c:446-467. -/
def recAuxCount (P : Plat) (s : State) (rdA : Nat) : Out :=
  if lk P s rdA .rd then
    match getRd s rdA with
    | none => none
    | some r => some (s, { x1 := r.numAux })
  else some (s, errInput)

/-! ## PSCI completion: /repo/runtime/rsi/psci.c:333-429, rec.c:469-524 -/

/-- `SMC32_PSCI_CPU_ON`, `SMC64_PSCI_CPU_ON`: /repo/lib/smc/include/smc.h, psci.h. -/
def isCpuOn (f : BitVec 64) : Bool := f == 0x84000003 || f == 0xC4000003
/-- `SMC32_PSCI_AFFINITY_INFO`, `SMC64_PSCI_AFFINITY_INFO`. -/
def isAffinityInfo (f : BitVec 64) : Bool := f == 0x84000004 || f == 0xC4000004

/-- `PSCI_RETURN_SUCCESS`, `DENIED`, `ALREADY_ON`: /repo/runtime/include/psci.h:40-52. -/
def psciSuccess : BitVec 64 := 0
def psciDenied : BitVec 64 := -3
def psciAlreadyOn : BitVec 64 := -4

/-- Registers of the calling REC after completion: psci.c:422-426. -/
def psciResult (c : Rec) (v : BitVec 64) : Rec :=
  { c with
    regs := fun i => if i = 0 then v else if i = 1 ∨ i = 2 ∨ i = 3 then 0 else c.regs i
    psciPending := false }

/-- `smc_psci_complete` with `psci_complete_request`.  The reset of PSTATE and
SCTLR_EL1 of the target (`psci_reset_rec`) is not part of `Rec`. -/
def psciComplete (P : Plat) (s : State) (callA tgtA : Nat) (status : BitVec 64) : Out :=
  if callA ≠ tgtA ∧ lk P s callA .recd ∧ lk P s tgtA .recd then
    if s.rc callA ≠ 0 then some (s, errInput)
    else match getRec s callA, getRec s tgtA with
    | some c, some t =>
      if c.psciPending = false then some (s, errInput)
      else if c.rd ≠ t.rd then some (s, errInput)
      else if (Mpidr.el1ToIdx (c.regs 1)).toNat ≠ t.idx then some (s, errInput)
      else if isCpuOn (c.regs 0) then
        if status ≠ psciSuccess ∧ status ≠ psciDenied then some (s, errInput)
        else if s.rc tgtA ≠ 0 ∨ t.runnable then
          some ({ s with mem := upd s.mem callA (.recd (psciResult c psciAlreadyOn)) },
            if status = psciDenied then errInput else {})
        else if status = psciDenied then
          some ({ s with mem := upd s.mem callA (.recd (psciResult c psciDenied)) }, {})
        else
          some ({ s with mem := upd (upd s.mem tgtA (.recd { t with
              regs := fun i => if i = 0 then c.regs 3 else t.regs i
              pc := c.regs 2, runnable := true })) callA (.recd (psciResult c psciSuccess)) }, {})
      else if isAffinityInfo (c.regs 0) then
        if status ≠ psciSuccess then some (s, errInput)
        else
          some ({ s with mem := upd s.mem callA (.recd (psciResult c
            (if s.rc tgtA ≠ 0 ∨ t.runnable then 0 else 1))) }, {})
      else none
    | _, _ => none
  else some (s, errInput)

/-! ## Running a REC: /repo/runtime/rmi/run.c -/

/-- `complete_set_ripas`: run.c:85-106. -/
def completeSetRipas (c : Rec) : Rec :=
  if c.sr.base = c.sr.top then c
  else
    { c with
      regs := fun i =>
        if i = 0 then 0
        else if i = 1 then BitVec.ofNat 64 c.sr.addr
        else if i = 2 then
          (if c.sr.ripas = .ram ∧ c.sr.addr ≠ c.sr.top ∧ c.sr.reject then 1 else 0)
        else c.regs i
      sr := { c.sr with base := 0, top := 0 } }

/-- `smc_rec_enter` up to the entry into the realm: run.c:176-290.  `accepted` stands
for the checks of the GIC state, SEA injection and MMIO emulation, which depend on the
host's `rec_enter` structure and on the last exit (modelled in `Verif.Run`); the REC
is left running (refcount 1). -/
def recEnter (P : Plat) (s : State) (recA runA : Nat) (accepted reject : Bool) : Out :=
  if lk P s runA .ns then
    if lk P s recA .recd then
      if s.rc recA ≠ 0 then some (s, errRec)
      else if s.pas runA ≠ .ns then some (s, errInput)
      else match getRec s recA with
      | none => none
      | some c =>
        match getRd s c.rd with
        | none => none
        | some r =>
          match r.state with
          | .new => some (s, errRealm 0)
          | .off => some (s, errRealm 1)
          | .active =>
            if c.runnable = false then some (s, errRec)
            else if c.psciPending then some (s, errRec)
            else if accepted = false then some (s, errRec)
            else some ({ s with
              rc := upd s.rc recA 1
              mem := upd s.mem recA
                (.recd (completeSetRipas { c with sr := { c.sr with reject := reject } })) }, {})
    else some (s, errInput)
  else some (s, errInput)

/-! ## Steps taken while a REC runs, and by the rest of the system

These act only when the REC is running (refcount 1). -/

/-- The realm executes, and RMM handles traps of it that touch nothing but the REC:
its registers and program counter become anything.  `stop` leaves the realm
(`atomic_granule_put_release`, run.c:333); on a PSCI_CPU_OFF exit (`off`,
/repo/runtime/rsi/psci.c:65-92) the REC is no longer runnable.  Register effects of the
entry itself (MMIO, sysreg and host-call completion) are covered too: they are followed
by execution. -/
def recRun (s : State) (recA : Nat) (stop off : Bool) (regs : Nat → BitVec 64) (pc : BitVec 64) : Out :=
  if s.st recA = .recd ∧ s.rc recA = 1 then
    match getRec s recA with
    | none => none
    | some c =>
      some ({ s with
        mem := upd s.mem recA (.recd { c with
          regs := regs, pc := pc, runnable := c.runnable && !(stop && off) })
        rc := if stop then upd s.rc recA 0 else s.rc }, {})
  else some (s, {})

/-- The low 32 bits of a register, as `handle_psci` reads the function identifier:
`switch ((unsigned int)rec->regs[0])`, psci.c:284-286. -/
def low32 (x : BitVec 64) : BitVec 64 := x &&& 0xffffffff

/-- `psci_cpu_on` and `psci_affinity_info`, when they forward the request to the host:
psci.c:123-167, 169-213.  When they answer at once the effect is on registers only,
which `recRun` covers. -/
def psciRequest (s : State) (recA : Nat) : Out :=
  if s.st recA = .recd ∧ s.rc recA = 1 then
    match getRec s recA with
    | none => none
    | some c =>
      match getRd s c.rd with
      | none => none
      | some r =>
        let f := low32 (c.regs 0)
        let i := (Mpidr.el1ToIdx (c.regs 1)).toNat
        if i < r.recCount ∧ i ≠ c.idx ∧
            ((isCpuOn f ∧ (c.regs 2).toNat < r.parSize) ∨ (isAffinityInfo f ∧ c.regs 2 = 0)) then
          some ({ s with
            mem := upd s.mem recA (.recd { c with psciPending := true })
            rc := upd s.rc recA 0 }, {})
        else some (s, {})
  else some (s, {})

/-- `handle_rsi_ipa_state_set`: /repo/runtime/rsi/memory.c:13-45; the realm exits to the
host when the request is accepted. -/
def rsiIpaStateSet (s : State) (recA base top : Nat) (v : Ripas) (chg : Bool) : Out :=
  if s.st recA = .recd ∧ s.rc recA = 1 then
    match getRec s recA with
    | none => none
    | some c =>
      match getRd s c.rd with
      | none => none
      | some r =>
        if v = .destroyed ∨ base % 4096 ≠ 0 ∨ top % 4096 ≠ 0 ∨ top ≤ base ∨
            ¬ (base < r.parSize ∧ top - 1 < r.parSize) then
          some ({ s with mem := upd s.mem recA (.recd { c with
            regs := fun i => if i = 0 then 1 else c.regs i }) }, {})
        else
          some ({ s with
            mem := upd s.mem recA (.recd { c with
              sr := { c.sr with base := base, top := top, addr := base, ripas := v, chg := chg }
              regs := fun i => if i = 0 then 0 else if i = 1 then BitVec.ofNat 64 top else c.regs i })
            rc := upd s.rc recA 0 }, {})
  else some (s, {})

/-- `system_off_reboot`: psci.c:221-241, followed by the exit to the host. -/
def psciSystemOff (s : State) (recA : Nat) : Out :=
  if s.st recA = .recd ∧ s.rc recA = 1 then
    match getRec s recA with
    | none => none
    | some c =>
      if s.st c.rd = .rd then
        match getRd s c.rd with
        | none => none
        | some r =>
          some ({ s with
            mem := upd s.mem c.rd (.rd { r with state := .off })
            rc := upd s.rc recA 0 }, {})
      else none
  else some (s, {})

/-- Extension of realm measurement `i` by `v`: `handle_rsi_measurement_extend`,
/repo/runtime/rsi/realm_attest.c:379-440, for an index in range. -/
def rsiExtend (s : State) (recA i v : Nat) : Out :=
  if s.st recA = .recd ∧ s.rc recA = 1 then
    match getRec s recA with
    | none => none
    | some c =>
      if s.st c.rd = .rd then
        match getRd s c.rd with
        | none => none
        | some r =>
          if 1 ≤ i ∧ i ≤ 4 then
            some ({ s with mem := upd s.mem c.rd (.rd { r with rem := upd r.rem i (r.rem i ++ [v]) }) }, {})
          else some (s, {})
      else none
  else some (s, {})

/-- The stage-2 translation the hardware performs for address `a` of realm `r`:
follow table entries until something else is met. -/
def hwWalk (s : State) (a : Nat) : Nat → Nat → Option (Entry × Nat)
  | 0, g => (getTab s g).map fun t => (t (idx 0 a), 0)
  | d + 1, g =>
    match getTab s g with
    | none => none
    | some t =>
      match t (idx (d + 1) a) with
      | .table c => hwWalk s a d c
      | e => some (e, d + 1)

/-- Physical address and address space (`true` = Non-secure) a realm access to `a` reaches. -/
def translate (s : State) (r : Rd) (a : Nat) : Option (Nat × Bool) :=
  if a < r.ipaSize then
    match hwWalk s a r.d0 (rootFor r a).2 with
    | some (.assigned .ram pa, d) => some (pa + a % sz d, false)
    | some (.assignedNs _ pa, d) => some (pa + a % sz d, true)
    | _ => none
  else none

/-- A running REC stores to its memory: the granule reached takes contents `p`,
provided the granule protection table agrees with the address space of the mapping. -/
def realmWrite (s : State) (recA a p : Nat) : Out :=
  if s.st recA = .recd ∧ s.rc recA = 1 then
    match getRec s recA with
    | none => none
    | some c =>
      match getRd s c.rd with
      | none => none
      | some r =>
        match translate s r a with
        | none => some (s, {})
        | some (pa, ns) =>
          if s.pas (pa / 4096 * 4096) = (if ns then .ns else .realm) then
            some ({ s with mem := upd s.mem (pa / 4096 * 4096) (.page p) }, {})
          else some (s, {})
  else some (s, {})

/-- While a REC runs, RMM keeps its SIMD, PMU and attestation state in its
auxiliary granules: /repo/runtime/include/rec.h:92-130. -/
def auxWrite (s : State) (recA a p : Nat) : Out :=
  if s.st recA = .recd ∧ s.rc recA = 1 then
    match getRec s recA with
    | none => none
    | some c => if a ∈ c.aux then some ({ s with mem := upd s.mem a (.page p) }, {}) else some (s, {})
  else some (s, {})

/-- The host (or any Non-secure agent) stores to memory: effective when the granule
protection table has the granule as Non-secure. -/
def hostWrite (s : State) (a p : Nat) : Out :=
  if s.pas a = .ns then some ({ s with mem := upd s.mem a (.page p) }, {}) else some (s, {})

/-- EL3, on request of the Secure world, moves a granule between the Non-secure and
other non-Realm address spaces. -/
def el3Move (s : State) (a : Nat) (toNs : Bool) : Out :=
  if s.pas a = .realm then some (s, {})
  else some ({ s with pas := upd s.pas a (if toNs then .ns else .other) }, {})

end Verif.Rmm
