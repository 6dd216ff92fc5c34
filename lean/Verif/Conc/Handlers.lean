import Verif.Conc.Flow

/-!
# Skeletons of the RMI and RSI handlers

Files are relative to /repo/runtime unless they start with lib/.  Conditions are dropped
(every branch is possible) and so are all operations other than locks, state changes,
references that protect a granule, and slot mappings.  `assert` failures end the
execution and have no trace.  Reference counts of tables and of the RD are not tracked
here (`Verif.Rmm` does); `get`/`put` is only used for the reference by which REC_ENTER
protects a running REC.

The number of auxiliary granules of a REC and of concatenated starting-level tables is at
most 16 (lib/smc/include/smc-rmi.h:107, `Verif.Geometry`); where the code maps or locks
them all at once the skeleton has one alternative for each number.
-/

namespace Verif.Conc

def sq : List Prog → Prog
  | [] => .nop
  | [p] => p
  | p :: l => .seq p (sq l)

def anyOf : List Prog → Prog
  | [] => .nop
  | [p] => p
  | p :: l => .alt p (anyOf l)

def opt (p : Prog) : Prog := .alt .nop p

def evs (l : List Ev) : Prog := sq (l.map .ev)

/-! Slot numbers: lib/slot_buf/include/buffer.h:14-43 with `MAX_REC_AUX_GRANULES` = 16,
`PDEV_PARAM_AUX_GRANULES_MAX` = `VDEV_PARAM_AUX_GRANULES_MAX` = 32
(lib/smc/include/smc-rmi.h:107, 996, 1074). -/
def slotDelegated : Nat := 1
def slotRd : Nat := 2
def slotRec : Nat := 3
def slotRec2 : Nat := 4
def slotRecAux0 : Nat := 6
def slotRtt : Nat := 22
def slotRtt2 : Nat := 23
def slotRsiCall : Nat := 90
def slotSignRec : Nat := 91
def slotSignAux0 : Nat := 92
def nrSlots : Nat := 108

/-- `find_lock_granule` failing: no such granule, or a state mismatch
(lib/granule/src/granule.c:112-126). -/
def notFound (h : How) : Prog := .alt .nop (.ev (.miss h))

/-- `buffer_granule_memzero`: lib/slot_buf/src/buffer.c:301-312. -/
def memzero (s : Nat) (t : Tag) : Prog := evs [.map s t, .unmap s]

/-- Map, then unmap, then `k`. -/
def mapped (s : Nat) (t : Tag) (p : Prog) : Prog := sq [.ev (.map s t), p, .ev (.unmap s)]

/-- `find_lock_two_granules` (lib/granule/src/granule.c:220-236) followed by `ok` or
`fail`: the two are locked in address order (`C42_all_or_nothing`); on a mismatch of the
second the first is released. -/
def lockTwo (a b : Tag) (ok fail : Prog) : Prog :=
  anyOf [
    sq [evs [.acq a .first, .acq b .above], ok],
    sq [evs [.acq b .first, .acq a .above], ok],
    sq [notFound .first, fail],
    sq [.ev (.acq a .first), notFound .above, .ev (.rel a), fail],
    sq [.ev (.acq b .first), notFound .above, .ev (.rel b), fail]]

/-- `s2tt_walk_lock_unlock`: lib/s2tt/src/s2tt.c:308-380, with `table_get_entry` (233-249)
and `find_lock_next_level` (269-284).  The starting-level table is locked as `llt`; so is
the last table reached. -/
def walk : Prog :=
  sq [opt (evs [.acq .nxt .concat, .rel .llt, .mv .nxt .llt]),
      .star (sq [memzero slotRtt .llt, evs [.acq .nxt .next, .rel .llt, .mv .nxt .llt]]),
      opt (memzero slotRtt .llt)]

/-- `smc_granule_delegate`: rmi/granule.c:14-37. -/
def granuleDelegate : Prog :=
  .alt (notFound .first)
    (sq [.ev (.acq .gran .first),
         opt (sq [.ev (.trans .gran), memzero slotDelegated .gran]),
         .ev (.rel .gran)])

/-- `smc_granule_undelegate`: rmi/granule.c:39-61. -/
def granuleUndelegate : Prog :=
  .alt (notFound .first)
    (sq [.ev (.acq .gran .first), .ev (.trans .gran), .ev (.rel .gran)])

/-- `smc_realm_activate`: rmi/realm.c:25-50; `smc_rec_aux_count`: rmi/rec.c:446-467. -/
def rdRead : Prog :=
  .alt (notFound .first) (evs [.acq .rd .first, .map slotRd .rd, .unmap slotRd, .rel .rd])

def rootTags (n : Nat) : List Tag := (List.range n).map .root

/-- `find_lock_rd_granules` (rmi/realm.c:338-391) with `n` starting-level tables, when the
RD is below them: followed by `ok`, or nothing if it fails.  `i` tables are locked when it
fails. -/
def lockRdBelow (n : Nat) (ok : Prog) : Prog :=
  anyOf ([notFound .first,
     sq ([.ev (.acq .rd .first)] ++ (rootTags n).map (fun t => .ev (.acq t .above)) ++ [ok])] ++
    (List.range n).map (fun i =>
      sq ([.ev (.acq .rd .first)] ++ (rootTags i).map (fun t => .ev (.acq t .above)) ++
        [notFound .above] ++ (rootTags i).reverse.map (fun t => .ev (.rel t)) ++ [.ev (.rel .rd)])))

/-- The same when the RD is above the tables. -/
def lockRdAbove (n : Nat) (ok : Prog) : Prog :=
  anyOf ([
    sq ((rootTags n).map (fun t => .ev (.acq t .above)) ++ [.ev (.acq .rd .above), ok])] ++
    (List.range (n + 1)).map (fun i =>
      sq ((rootTags i).map (fun t => .ev (.acq t .above)) ++
        [notFound .above] ++ (rootTags i).reverse.map (fun t => .ev (.rel t)))))

/-- `smc_realm_create`: rmi/realm.c:393-477, with `init_s2_starting_level` (179-231). -/
def realmCreate : Prog :=
  let ok (n : Nat) : Prog :=
    sq ([.ev (.map slotRd .rd)] ++ (rootTags n).map (fun t => opt (memzero slotRtt t)) ++
      [evs [.unmap slotRd, .trans .rd, .rel .rd]] ++
      (rootTags n).map (fun t => evs [.trans t, .rel t]))
  sq [opt (.ev .nsAccess),
    .alt .nop (anyOf ((List.range 16).map (fun i => .alt (lockRdBelow (i + 1) (ok (i + 1)))
      (lockRdAbove (i + 1) (ok (i + 1))))))]

/-- `total_root_rtt_refcount`: rmi/realm.c:479-498. -/
def totalRootRefcount : Prog := .star (evs [.acq .llt .root, .rel .llt])

/-- `free_sl_rtts`: rmi/realm.c:325-336. -/
def freeSlRtts : Prog :=
  .star (sq [.ev (.acq .llt .root), memzero slotRtt .llt, evs [.trans .llt, .rel .llt]])

/-- `smc_realm_destroy`: rmi/realm.c:500-549.  `find_lock_unused_granule`
(lib/granule/include/granule.h:309-330) releases the lock if the count is not zero. -/
def realmDestroy : Prog :=
  anyOf [notFound .first,
    evs [.acq .rd .first, .rel .rd],
    sq [evs [.acq .rd .first, .map slotRd .rd], totalRootRefcount, evs [.unmap slotRd, .rel .rd]],
    sq [evs [.acq .rd .first, .map slotRd .rd], totalRootRefcount, .ev (.unmap slotRd), freeSlRtts,
        memzero slotRd .rd, evs [.trans .rd, .rel .rd]]]

def auxMap (base n : Nat) (t : Tag) : Prog := evs ((List.range n).map (fun i => .map (base + i) t))
def auxUnmap (base n : Nat) : Prog := evs ((List.range n).map (fun i => .unmap (base + i)))

/-- Map the auxiliary granules (lib/slot_buf/src/buffer.c:220-246), `p`, unmap them. -/
def withAux (base : Nat) (t : Tag) (p : Prog) : Prog :=
  anyOf ((List.range 16).map (fun i => sq [auxMap base (i + 1) t, p, auxUnmap base (i + 1)]))

/-- `free_rec_aux_granules`: rmi/rec.c:176-192; the slot used for scrubbing depends on the
index. -/
def freeRecAux : Prog :=
  .star (sq [.ev (.acq .aux .aux),
    opt (anyOf ((List.range 16).map (fun i => memzero (slotRecAux0 + i) .aux))),
    evs [.trans .aux, .rel .aux]])

/-- The body of `smc_rec_create` after the auxiliary granules were taken:
rmi/rec.c:303-397. -/
def recCreateTail : Prog :=
  lockTwo .recg .rd
    (.alt (sq [.ev (.rel .rd), opt (.ev (.trans .recg)), .ev (.rel .recg), freeRecAux])
      (sq [evs [.map slotRec .recg, .map slotRd .rd],
        .alt
          (sq [evs [.unmap slotRd, .unmap slotRec, .rel .rd, .rel .recg], freeRecAux])
          (sq [withAux slotRecAux0 .recg .nop,
               evs [.unmap slotRd, .unmap slotRec, .rel .rd, .trans .recg, .rel .recg]])]))
    freeRecAux

/-- `smc_rec_create`: rmi/rec.c:247-398, with the error path of the loop over the
auxiliary granules (rmi/rec.c:288-296) as written: it unlocks each granule taken so far,
though each was already unlocked. -/
def recCreate : Prog :=
  .alt .nop (sq [.ev .nsAccess,
    .alt .nop (sq [
      .star (evs [.acq .aux .first, .trans .aux, .rel .aux]),
      .alt (sq [notFound .first, .star (.ev (.rel .aux)), freeRecAux]) recCreateTail])])

/-- `smc_rec_create` without the extra unlocks of rmi/rec.c:290-292: the executions in
which the first auxiliary granule is not available, or all are. -/
def recCreateFixed : Prog :=
  .alt .nop (sq [.ev .nsAccess,
    .alt .nop (sq [
      .star (evs [.acq .aux .first, .trans .aux, .rel .aux]),
      .alt (sq [notFound .first, freeRecAux]) recCreateTail])])

/-- `smc_rec_destroy`: rmi/rec.c:400-444. -/
def recDestroy : Prog :=
  anyOf [notFound .first,
    evs [.acq .recg .first, .rel .recg],
    sq [evs [.acq .recg .first, .map slotRec .recg], freeRecAux,
        evs [.unmap slotRec, .trans .recg, .rel .recg]]]

/-- `smc_psci_complete`: rmi/rec.c:469-524. -/
def psciComplete : Prog :=
  .alt .nop (lockTwo .recg .rec2
    (sq [opt (evs [.map slotRec .recg, .map slotRec2 .rec2, .unmap slotRec2, .unmap slotRec]),
         evs [.rel .recg, .rel .rec2]])
    .nop)

/-- Lock the RD and the starting-level table and release the RD, walk, then `p`; `bad` if
the arguments are refused: the common start of the table commands. -/
def rttCmd (p : Prog) : Prog :=
  .alt (notFound .first)
    (sq [evs [.acq .rd .first, .map slotRd .rd, .unmap slotRd],
      .alt (.ev (.rel .rd))
        (sq [evs [.acq .llt .root, .rel .rd], walk, p])])

/-- `smc_rtt_create`: rmi/rtt.c:78-286. -/
def rttCreate : Prog :=
  lockTwo .tbl .rd
    (sq [evs [.map slotRd .rd, .unmap slotRd],
      .alt (evs [.rel .rd, .rel .tbl])
        (sq [evs [.acq .llt .root, .rel .rd], walk,
          opt (sq [evs [.map slotRtt .llt, .map slotDelegated .tbl], opt (.ev (.trans .tbl)),
                   evs [.unmap slotDelegated, .unmap slotRtt]]),
          evs [.rel .llt, .rel .tbl]])])
    .nop

/-- `smc_rtt_fold`: rmi/rtt.c:288-481. -/
def rttFold : Prog :=
  rttCmd (sq [
    opt (sq [.ev (.map slotRtt .llt),
      opt (sq [evs [.acq .tbl .next, .map slotRtt2 .tbl], opt (.ev (.trans .tbl)),
               evs [.unmap slotRtt2, .rel .tbl]]),
      .ev (.unmap slotRtt)]),
    .ev (.rel .llt)])

/-- `smc_rtt_destroy`: rmi/rtt.c:483-609. -/
def rttDestroy : Prog :=
  rttCmd (sq [
    .ev (.map slotRtt .llt),
    opt (sq [.ev (.acq .tbl .next),
      opt (evs [.map slotRtt2 .tbl, .trans .tbl, .unmap slotRtt2]), .ev (.rel .tbl)]),
    evs [.unmap slotRtt, .rel .llt]])

/-- `map_unmap_ns`: rmi/rtt.c:622-735; `smc_rtt_read_entry`: rmi/rtt.c:770-855. -/
def rttMapOrRead : Prog :=
  rttCmd (sq [opt (evs [.map slotRtt .llt, .unmap slotRtt]), .ev (.rel .llt)])

/-- `data_create`: rmi/rtt.c:887-1005; the RD stays locked and mapped. -/
def dataCreate : Prog :=
  lockTwo .dat .rd
    (sq [.ev (.map slotRd .rd),
      opt (sq [.ev (.acq .llt .root), walk,
        opt (sq [.ev (.map slotRtt .llt),
          opt (evs [.map slotDelegated .dat, .nsAccess, .unmap slotDelegated]),
          .ev (.unmap slotRtt)]),
        .ev (.rel .llt)]),
      evs [.unmap slotRd, .rel .rd, .trans .dat, .rel .dat]])
    .nop

/-- `smc_data_destroy`: rmi/rtt.c:1036-1125. -/
def dataDestroy : Prog :=
  rttCmd (sq [.ev (.map slotRtt .llt),
    opt (sq [.ev (.acq .dat .dat), memzero slotDelegated .dat, evs [.trans .dat, .rel .dat]]),
    evs [.unmap slotRtt, .rel .llt]])

/-- `smc_rtt_init_ripas`: rmi/rtt.c:1207-1313. -/
def rttInitRipas : Prog :=
  .alt (notFound .first)
    (sq [evs [.acq .rd .first, .map slotRd .rd],
      .alt (evs [.unmap slotRd, .rel .rd])
        (sq [.ev (.acq .llt .root), walk,
          evs [.map slotRtt .llt, .unmap slotRtt, .unmap slotRd, .rel .llt, .rel .rd]])])

/-- `smc_rtt_set_ripas`: rmi/rtt.c:1376-1476. -/
def rttSetRipas : Prog :=
  .alt .nop (lockTwo .rd .recg
    (sq [opt (sq [.ev (.map slotRec .recg),
        opt (sq [evs [.map slotRd .rd, .acq .llt .root], walk,
          opt (evs [.map slotRtt .llt, .unmap slotRtt]), evs [.rel .llt, .unmap slotRd]]),
        .ev (.unmap slotRec)]),
      evs [.rel .recg, .rel .rd]])
    .nop)

/-! ## Calls made by a running realm

A running REC is protected by the reference REC_ENTER took; its RD cannot be destroyed
while the REC exists, so the reference also protects the RD and the starting-level tables
(lib/granule/include/granule_types.h, `C32`). -/

/-- `realm_ipa_to_pa` (rsi/realm_ipa_helper.c:39-94) succeeding, followed by `ok` with the
last table locked; or failing.  When it fails the table is unlocked before the slot is
unmapped (lines 86, 92). -/
def ipaToPa (ok : Prog) : Prog :=
  .alt .nop (sq [.ev (.acq .llt .root), walk, .ev (.map slotRtt .llt),
    .alt (evs [.rel .llt, .unmap slotRtt]) (sq [.ev (.unmap slotRtt), ok, .ev (.rel .llt)])])

/-- `do_host_call`: rsi/host_call.c:31-105. -/
def doHostCall : Prog := ipaToPa (evs [.map slotRsiCall .llt, .unmap slotRsiCall])

/-- `handle_rsi_realm_config`: rsi/config.c:15-78. -/
def realmConfig : Prog :=
  ipaToPa (evs [.map slotRsiCall .llt, .map slotRd .recg, .unmap slotRd, .unmap slotRsiCall])

/-- `realm_ipa_get_ripas`: rsi/realm_ipa_helper.c:110-172. -/
def ipaGetRipas : Prog :=
  opt (sq [.ev (.acq .llt .root), walk, evs [.map slotRtt .llt, .unmap slotRtt, .rel .llt]])

/-- `handle_rsi_attest_token_init` (rsi/realm_attest.c:137-199),
`handle_rsi_measurement_extend` (375-440), `handle_rsi_measurement_read` (442-500),
`system_off_reboot` (rsi/psci.c:221-241): the RD is locked while it is mapped. -/
def lockedRd : Prog := opt (evs [.acq .rd .first, .map slotRd .rd, .unmap slotRd, .rel .rd])

/-- `rd_map_read_rec_count`: rsi/psci.c:111-121. -/
def readRecCount : Prog := opt (memzero slotRd .recg)

/-- `write_response_to_rec`: rsi/realm_attest.c:210-275; the slot of the auxiliary
granules differs from that of the running REC. -/
def writeResponse : Prog :=
  .alt .nop (.alt (notFound .first)
    (sq [evs [.acq .rec2 .first, .map slotSignRec .rec2], withAux slotSignAux0 .rec2 .nop,
         evs [.unmap slotSignRec, .rel .rec2]]))

/-- `handle_rsi_attest_token_continue`: rsi/realm_attest.c:277-373. -/
def tokenContinue : Prog :=
  sq [.star writeResponse,
    opt (ipaToPa (opt (evs [.map slotRsiCall .llt, .unmap slotRsiCall])))]

/-- `ipa_is_empty`: core/exit.c:81-99. -/
def ipaIsEmpty : Prog := ipaToPa .nop

/-- One exit from the realm: core/exit.c. -/
def realmExit : Prog :=
  anyOf [.nop, doHostCall, realmConfig, ipaGetRipas, lockedRd, readRecCount, tokenContinue, ipaIsEmpty]

/-- `rec_run_loop`: core/run.c:260-370. -/
def recRunLoop : Prog := withAux slotRecAux0 .recg (.star realmExit)

/-- `smc_rec_enter`: rmi/run.c:170-338. -/
def recEnter : Prog :=
  anyOf [.nop, notFound .first, evs [.acq .recg .first, .rel .recg],
    sq [evs [.acq .recg .first, .get .recg, .rel .recg, .nsAccess],
      .alt (.ev (.put .recg))
        (sq [evs [.map slotRec .recg, .map slotRd .recg, .unmap slotRd],
          opt (sq [opt doHostCall, opt recRunLoop]),
          .ev (.unmap slotRec), opt (.ev .nsAccess), .ev (.put .recg)])]]

/-- The RMI commands: core/handler.c:136-190.  VERSION and FEATURES touch nothing;
DATA_CREATE and DATA_CREATE_UNKNOWN share a skeleton, as do RTT_MAP_UNPROTECTED,
RTT_UNMAP_UNPROTECTED and RTT_READ_ENTRY, and REALM_ACTIVATE and REC_AUX_COUNT. -/
def commands : List Prog :=
  [.nop, granuleDelegate, granuleUndelegate, rdRead, realmCreate, realmDestroy, recDestroy,
   recEnter, psciComplete, rttCreate, rttFold, rttDestroy, rttMapOrRead, dataCreate, dataDestroy,
   rttInitRipas, rttSetRipas, recCreateFixed]

theorem commands_balanced : ∀ p ∈ commands, balanced p = true := by decide +kernel

end Verif.Conc
