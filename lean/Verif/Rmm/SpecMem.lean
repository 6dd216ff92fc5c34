import Verif.Rmm.SpecRtt
import Verif.S2tte.Props

/-!
# The RMM machine: what the mapping, data and RIPAS commands do
-/

namespace Verif.Rmm

open S2tte (hostNsIsValid toPa NS_ATTR_MASK)

section
variable {P : Plat} {s : State} {ti : Nat → TabInfo} {di : Nat → Nat × Nat} {rl : Nat → List Nat}

/-- A walk to depth 0 always ends on an entry that is not a table. -/
theorem walk_leaf (h : InvG P s ti di rl) {rdA a : Nat} (hrd : s.st rdA = .rd)
    (ha : a < (rdOf s rdA).ipaSize) :
    ∃ g d, walk s (rdOf s rdA) a 0 = some ⟨g, d, idx d a⟩ ∧ At s ti rdA a d g ∧
      (∀ c, tabOf s g (idx d a) ≠ .table c) := by
  obtain ⟨g, d, hw, hat, _, hstop⟩ := walk_at h hrd ha (Nat.zero_le _)
  refine ⟨g, d, hw, hat, ?_⟩
  by_cases hd : d = 0
  · subst hd
    intro c hc
    have := hat.ent h
    rw [hc] at this
    exact absurd this.2.1 (by omega)
  · exact hstop hd

/-! ## Unprotected mappings -/

/-- A descriptor accepted from the host makes a legal entry. -/
theorem hostEntry_ok (r : Rd) (h : BitVec 64) (d : Nat) (hd : d ≤ 2)
    (hv : hostNsIsValid r.lpa2 h (3 - (d : Int)) = some true) :
    NsOk r d (h &&& NS_ATTR_MASK) (toPa h (3 - (d : Int)) r.lpa2).toNat := by
  have hok := (S2tte.C12_host_descriptor_valid_iff r.lpa2 (3 - (d : Int)) h (by omega) (by omega)).mp hv
  have hpa : S2tte.Spec.PaOk r.lpa2 (3 - (d : Int)) (toPa h (3 - (d : Int)) r.lpa2) := by
    rw [S2tte.paOk_iff_bits]
    intro i hi
    rw [S2tte.getLsbD_toPa _ _ _ (by omega), S2tte.lsbOf_eq] at hi
    unfold S2tte.Spec.hwOaBit at hi
    have : S2tte.Spec.offBits (3 - (d : Int)) = 12 + 9 * d := by unfold S2tte.Spec.offBits; omega
    rw [this] at hi ⊢
    unfold S2tte.Spec.paBits
    cases hl : r.lpa2 <;> rw [hl] at hi <;> grind
  have hal := hpa.1
  have hlt := hpa.2
  refine ⟨?_, ?_, ?_, ?_⟩
  · have : S2tte.Spec.offBits (3 - (d : Int)) = 12 + 9 * d := by unfold S2tte.Spec.offBits; omega
    rw [this] at hal
    rw [sz_eq]
    exact hal
  · unfold S2tte.Spec.paBits at hlt
    exact hlt
  · intro i hi
    rw [BitVec.getLsbD_and, S2tte.bits_NS_ATTR_MASK] at hi
    simp at hi
    omega
  · have h2 := hok.2
    have b2 : NS_ATTR_MASK.getLsbD 2 = true := by rw [S2tte.bits_NS_ATTR_MASK]; decide
    have b3 : NS_ATTR_MASK.getLsbD 3 = true := by rw [S2tte.bits_NS_ATTR_MASK]; decide
    have b4 : NS_ATTR_MASK.getLsbD 4 = true := by rw [S2tte.bits_NS_ATTR_MASK]; decide
    rw [BitVec.getLsbD_and, BitVec.getLsbD_and, BitVec.getLsbD_and, b2, b3, b4,
      Bool.and_true, Bool.and_true, Bool.and_true]
    exact h2

/-- A successful RTT_MAP_UNPROTECTED. -/
structure MapOk (s : State) (ti : Nat → TabInfo) (rdA a d g : Nat) (hd : BitVec 64)
    (s' : State) (ret : Ret) : Prop where
  at_ : At s ti rdA a d g
  al : a % sz d = 0
  d2 : d ≤ 2
  par : (rdOf s rdA).parSize ≤ a
  valid : hostNsIsValid (rdOf s rdA).lpa2 hd (3 - (d : Int)) = some true
  ent : tabOf s g (idx d a) = .unassignedNs
  st : s' = { s with mem := upd s.mem g (.table (upd (tabOf s g) (idx d a)
    (hostEntry (rdOf s rdA) hd (3 - (d : Int))))) }
  ret : ret = {}

theorem rttMapUnprotected_spec (h : InvG P s ti di rl) (rdA a : Nat) (lvl : Int) (hd : BitVec 64)
    (hlv : s.st rdA = .rd → 3 - ((rdOf s rdA).d0 : Int) ≤ lvl) :
    ∃ s' ret, rttMapUnprotected P s rdA a lvl hd = some (s', ret) ∧
      ((s' = s ∧ ret.status ≠ 0) ∨
       ∃ (d g : Nat), lvl = 3 - (d : Int) ∧ MapOk s ti rdA a d g hd s' ret) := by
  unfold rttMapUnprotected
  by_cases h0 : 1 ≤ lvl ∧ lvl ≤ 3
  swap
  · rw [if_neg h0]; exact ⟨_, _, rfl, Or.inl ⟨rfl, by decide⟩⟩
  rw [if_pos h0]
  by_cases h1 : lk P s rdA .rd = true
  swap
  · rw [if_neg h1]; exact ⟨_, _, rfl, Or.inl ⟨rfl, by decide⟩⟩
  rw [if_pos h1]
  rw [lk_iff] at h1
  obtain ⟨_, hrd⟩ := h1
  rw [getRd_eq h hrd]
  dsimp only
  cases hv : hostNsIsValid (rdOf s rdA).lpa2 hd lvl with
  | none =>
    exfalso
    unfold hostNsIsValid at hv
    rw [if_pos h0] at hv
    simp at hv
  | some b =>
    cases b with
    | false => exact ⟨_, _, rfl, Or.inl ⟨rfl, by decide⟩⟩
    | true =>
      dsimp only
      by_cases h2 : validateMap (rdOf s rdA) a lvl = true
      swap
      · rw [if_neg h2]; exact ⟨_, _, rfl, Or.inl ⟨rfl, by decide⟩⟩
      rw [if_pos h2]
      obtain ⟨d, rfl, hd2, hv2⟩ := (validateMap_iff _ _ _).mp h2
      obtain ⟨hlt, hal, _⟩ := (validateMapAddr_iff _ _ _).mp hv2
      rw [dOf_sub]
      by_cases h3 : (rdOf s rdA).inPar a = true
      · rw [if_pos h3]; exact ⟨_, _, rfl, Or.inl ⟨rfl, by decide⟩⟩
      rw [if_neg h3]
      have hpar : (rdOf s rdA).parSize ≤ a := by simp [Rd.inPar] at h3; exact h3
      have hlv := hlv hrd
      obtain ⟨g, dw, hw, hat, hge, hstop⟩ := walk_at h hrd hlt (show d ≤ _ by omega)
      rw [hw]
      dsimp only
      by_cases h4 : dw = d
      swap
      · rw [if_neg h4]; exact ⟨_, _, rfl, Or.inl ⟨rfl, by simp [errRtt]⟩⟩
      rw [if_pos h4]
      subst h4
      rw [getTab_eq h hat.st]
      dsimp only
      cases he : tabOf s g (idx dw a) with
      | unassignedNs =>
        exact ⟨_, _, rfl, Or.inr ⟨dw, g, rfl, ⟨hat, hal, hd2, hpar, hv, he, rfl, rfl⟩⟩⟩
      | _ => exact ⟨_, _, rfl, Or.inl ⟨rfl, by simp [errRtt]⟩⟩

/-- A successful RTT_UNMAP_UNPROTECTED. -/
structure UnmapOk (s : State) (ti : Nat → TabInfo) (rdA a d g : Nat)
    (s' : State) (ret : Ret) : Prop where
  at_ : At s ti rdA a d g
  al : a % sz d = 0
  d2 : d ≤ 2
  par : (rdOf s rdA).parSize ≤ a
  ent : ∃ at_ pa, tabOf s g (idx d a) = .assignedNs at_ pa
  st : s' = { s with mem := upd s.mem g (.table (upd (tabOf s g) (idx d a) .unassignedNs)) }
  ret : ret = { x1 := skipNonLive (upd (tabOf s g) (idx d a) .unassignedNs) ⟨g, d, idx d a⟩ a
                tlbi := [⟨(rdOf s rdA).vmid, a, 4096⟩] }

theorem rttUnmapUnprotected_spec (h : InvG P s ti di rl) (rdA a : Nat) (lvl : Int)
    (hlv : s.st rdA = .rd → 3 - ((rdOf s rdA).d0 : Int) ≤ lvl) :
    ∃ s' ret, rttUnmapUnprotected P s rdA a lvl = some (s', ret) ∧
      ((s' = s ∧ ret.status ≠ 0) ∨
       ∃ (d g : Nat), lvl = 3 - (d : Int) ∧ UnmapOk s ti rdA a d g s' ret) := by
  unfold rttUnmapUnprotected
  by_cases h0 : 1 ≤ lvl ∧ lvl ≤ 3
  swap
  · rw [if_neg h0]; exact ⟨_, _, rfl, Or.inl ⟨rfl, by decide⟩⟩
  rw [if_pos h0]
  by_cases h1 : lk P s rdA .rd = true
  swap
  · rw [if_neg h1]; exact ⟨_, _, rfl, Or.inl ⟨rfl, by decide⟩⟩
  rw [if_pos h1]
  rw [lk_iff] at h1
  obtain ⟨_, hrd⟩ := h1
  rw [getRd_eq h hrd]
  dsimp only
  by_cases h2 : validateMap (rdOf s rdA) a lvl = true
  swap
  · rw [if_neg h2]; exact ⟨_, _, rfl, Or.inl ⟨rfl, by decide⟩⟩
  rw [if_pos h2]
  obtain ⟨d, rfl, hd2, hv2⟩ := (validateMap_iff _ _ _).mp h2
  obtain ⟨hlt, hal, _⟩ := (validateMapAddr_iff _ _ _).mp hv2
  rw [dOf_sub]
  by_cases h3 : (rdOf s rdA).inPar a = true
  · rw [if_pos h3]; exact ⟨_, _, rfl, Or.inl ⟨rfl, by decide⟩⟩
  rw [if_neg h3]
  have hpar : (rdOf s rdA).parSize ≤ a := by simp [Rd.inPar] at h3; exact h3
  have hlv := hlv hrd
  obtain ⟨g, dw, hw, hat, hge, hstop⟩ := walk_at h hrd hlt (show d ≤ _ by omega)
  rw [hw]
  dsimp only
  rw [getTab_eq h hat.st]
  dsimp only
  by_cases h4 : dw = d
  swap
  · rw [if_neg h4]; exact ⟨_, _, rfl, Or.inl ⟨rfl, by simp [errRtt]⟩⟩
  rw [if_pos h4]
  subst h4
  cases he : tabOf s g (idx dw a) with
  | assignedNs at_ pa =>
    exact ⟨_, _, rfl, Or.inr ⟨dw, g, rfl, ⟨hat, hal, hd2, hpar, ⟨_, _, he⟩, rfl, rfl⟩⟩⟩
  | _ => exact ⟨_, _, rfl, Or.inl ⟨rfl, by simp [errRtt]⟩⟩

/-! ## RTT_READ_ENTRY -/

/-- A successful RTT_READ_ENTRY. -/
structure ReadOk (s : State) (ti : Nat → TabInfo) (rdA a tgt d g : Nat) (ret : Ret) : Prop where
  at_ : At s ti rdA a d g
  al : a % sz tgt = 0
  ge : tgt ≤ d
  stop : d ≠ tgt → ∀ c, tabOf s g (idx d a) ≠ .table c
  ret : ret = { x1 := if d = 4 then 2 ^ 64 - 1 else 3 - d
                x2 := (readRegs (rdOf s rdA) (tabOf s g (idx d a))).1
                x3 := (readRegs (rdOf s rdA) (tabOf s g (idx d a))).2.1
                x4 := (readRegs (rdOf s rdA) (tabOf s g (idx d a))).2.2 }

theorem rttReadEntry_spec (h : InvG P s ti di rl) (rdA a : Nat) (lvl : Int) :
    ∃ ret, rttReadEntry P s rdA a lvl = some (s, ret) ∧
      (ret.status ≠ 0 ∨
       ∃ (tgt d g : Nat), lvl = 3 - (tgt : Int) ∧ ReadOk s ti rdA a tgt d g ret) := by
  unfold rttReadEntry
  by_cases h1 : lk P s rdA .rd = true
  swap
  · rw [if_neg h1]; exact ⟨_, rfl, Or.inl (by decide)⟩
  rw [if_pos h1]
  rw [lk_iff] at h1
  obtain ⟨_, hrd⟩ := h1
  rw [getRd_eq h hrd]
  dsimp only
  by_cases h2 : validateEntry (rdOf s rdA) a lvl = true
  swap
  · rw [if_neg h2]; exact ⟨_, rfl, Or.inl (by decide)⟩
  rw [if_pos h2]
  obtain ⟨d, rfl, hd, hv2⟩ := (validateEntry_iff _ _ _).mp h2
  obtain ⟨hlt, hal, _⟩ := (validateMapAddr_iff _ _ _).mp hv2
  rw [dOf_sub]
  obtain ⟨g, dw, hw, hat, hge, hstop⟩ := walk_at h hrd hlt hd
  rw [hw]
  dsimp only
  rw [getTab_eq h hat.st]
  exact ⟨_, rfl, Or.inr ⟨d, dw, g, rfl, ⟨hat, hal, hge, hstop, rfl⟩⟩⟩

/-! ## DATA_CREATE, DATA_CREATE_UNKNOWN, DATA_DESTROY -/

/-- Common part of the successful data creations: `data` is mapped at `a`, whose
entry said UNASSIGNED with RIPAS `rp0`. -/
structure DataOk (s : State) (ti : Nat → TabInfo) (rdA data a g : Nat) (rp0 : Ripas) : Prop where
  del : s.st data = .delegated
  at_ : At s ti rdA a 0 g
  al : a % 4096 = 0
  par : a < (rdOf s rdA).parSize
  ent : tabOf s g (idx 0 a) = .unassigned rp0
  pa : (rdOf s rdA).lpa2 = false → data < 2 ^ 48

theorem inPar_iff (r : Rd) (a : Nat) : r.inPar a = true ↔ a < r.parSize := by simp [Rd.inPar]

theorem dataCreateUnknown_spec (h : InvG P s ti di rl) (rdA data a : Nat) :
    ∃ s' ret, dataCreateUnknown P s rdA data a = some (s', ret) ∧
      ((s' = s ∧ ret.status ≠ 0) ∨
       ∃ g rp, DataOk s ti rdA data a g rp ∧ ret = {} ∧
        s' = dataCreateSt s data g (idx 0 a) (tabOf s g) rp) := by
  unfold dataCreateUnknown
  by_cases h1 : (lk P s data .delegated && lk P s rdA .rd) = true
  swap
  · rw [if_neg h1]; exact ⟨_, _, rfl, Or.inl ⟨rfl, by decide⟩⟩
  rw [if_pos h1]
  simp only [Bool.and_eq_true, lk_iff] at h1
  obtain ⟨⟨_, hdata⟩, _, hrd⟩ := h1
  rw [getRd_eq h hrd]
  dsimp only
  by_cases h2 : ((rdOf s rdA).inPar a && validateMapAddr (rdOf s rdA) a 0) = true
  swap
  · rw [if_neg h2]; exact ⟨_, _, rfl, Or.inl ⟨rfl, by decide⟩⟩
  rw [if_pos h2]
  rw [Bool.and_eq_true, inPar_iff, validateMapAddr_iff, sz_zero] at h2
  obtain ⟨hpar, hlt, hal, _⟩ := h2
  by_cases h3 : (rdOf s rdA).lpa2 = false ∧ 2 ^ 48 ≤ data
  · rw [if_pos h3]; exact ⟨_, _, rfl, Or.inl ⟨rfl, by decide⟩⟩
  rw [if_neg h3]
  have hpa : (rdOf s rdA).lpa2 = false → data < 2 ^ 48 := by intro hl; by_contra hc; exact h3 ⟨hl, by omega⟩
  obtain ⟨g, dw, hw, hat, hleaf⟩ := walk_leaf h hrd hlt
  rw [hw]
  dsimp only
  by_cases h4 : dw = 0
  swap
  · rw [if_neg h4]; exact ⟨_, _, rfl, Or.inl ⟨rfl, by simp [errRtt]⟩⟩
  rw [if_pos h4]
  subst h4
  rw [getTab_eq h hat.st]
  dsimp only
  cases he : tabOf s g (idx 0 a) with
  | unassigned rp => exact ⟨_, _, rfl, Or.inr ⟨g, rp, ⟨hdata, hat, hal, hpar, he, hpa⟩, rfl, rfl⟩⟩
  | _ => exact ⟨_, _, rfl, Or.inl ⟨rfl, by simp [errRtt]⟩⟩

/-- State after a successful DATA_CREATE. -/
def dataCreatedSt (s : State) (rdA data a g p flags : Nat) : State :=
  dataCreateSt { s with
    mem := upd (upd s.mem data (.page p)) rdA (.rd { rdOf s rdA with
      rim := (rdOf s rdA).rim ++ [MeasEv.data a (if flags = 1 then some p else none)] }) }
    data g (idx 0 a) (tabOf s g) .ram

theorem dataCreate_spec (h : InvG P s ti di rl) (rdA data a src flags : Nat) :
    ∃ s' ret, dataCreate P s rdA data a src flags = some (s', ret) ∧
      ((s' = s ∧ ret.status ≠ 0) ∨
       ∃ g rp p, DataOk s ti rdA data a g rp ∧ ret = {} ∧ (flags = 0 ∨ flags = 1) ∧
        (rdOf s rdA).state = .new ∧ s.st src = .ns ∧ s.pas src = .ns ∧ s.mem src = .page p ∧
        s' = dataCreatedSt s rdA data a g p flags) := by
  unfold dataCreate
  by_cases hf : flags ≠ 0 ∧ flags ≠ 1
  · rw [if_pos hf]; exact ⟨_, _, rfl, Or.inl ⟨rfl, by decide⟩⟩
  rw [if_neg hf]
  by_cases h0 : lk P s src .ns = true
  swap
  · rw [if_neg h0]; exact ⟨_, _, rfl, Or.inl ⟨rfl, by decide⟩⟩
  rw [if_pos h0]
  rw [lk_iff] at h0
  obtain ⟨_, hsrc⟩ := h0
  by_cases h1 : (lk P s data .delegated && lk P s rdA .rd) = true
  swap
  · rw [if_neg h1]; exact ⟨_, _, rfl, Or.inl ⟨rfl, by decide⟩⟩
  rw [if_pos h1]
  simp only [Bool.and_eq_true, lk_iff] at h1
  obtain ⟨⟨_, hdata⟩, _, hrd⟩ := h1
  rw [getRd_eq h hrd]
  dsimp only
  by_cases hn : (rdOf s rdA).state ≠ .new
  · rw [if_pos hn]; exact ⟨_, _, rfl, Or.inl ⟨rfl, by simp [errRealm]⟩⟩
  rw [if_neg hn]
  by_cases h2 : ((rdOf s rdA).inPar a && validateMapAddr (rdOf s rdA) a 0) = true
  swap
  · rw [if_neg h2]; exact ⟨_, _, rfl, Or.inl ⟨rfl, by decide⟩⟩
  rw [if_pos h2]
  rw [Bool.and_eq_true, inPar_iff, validateMapAddr_iff, sz_zero] at h2
  obtain ⟨hpar, hlt, hal, _⟩ := h2
  by_cases h3 : (rdOf s rdA).lpa2 = false ∧ 2 ^ 48 ≤ data
  · rw [if_pos h3]; exact ⟨_, _, rfl, Or.inl ⟨rfl, by decide⟩⟩
  rw [if_neg h3]
  have hpa : (rdOf s rdA).lpa2 = false → data < 2 ^ 48 := by intro hl; by_contra hc; exact h3 ⟨hl, by omega⟩
  obtain ⟨g, dw, hw, hat, hleaf⟩ := walk_leaf h hrd hlt
  rw [hw]
  dsimp only
  by_cases h4 : dw = 0
  swap
  · rw [if_neg h4]; exact ⟨_, _, rfl, Or.inl ⟨rfl, by simp [errRtt]⟩⟩
  rw [if_pos h4]
  subst h4
  rw [getTab_eq h hat.st]
  dsimp only
  cases he : tabOf s g (idx 0 a) with
  | unassigned rp =>
    dsimp only
    by_cases h5 : s.pas src = .ns
    · rw [if_pos h5]
      obtain ⟨p, hp⟩ := h.nsPage src hsrc
      rw [hp]
      exact ⟨_, _, rfl, Or.inr ⟨g, rp, p, ⟨hdata, hat, hal, hpar, he, hpa⟩, rfl, by omega,
        by simpa using hn, hsrc, h5, rfl, rfl⟩⟩
    · rw [if_neg h5]
      refine ⟨_, _, rfl, Or.inl ⟨?_, by decide⟩⟩
      rw [← h.delPage data hdata, upd_self]
  | _ => exact ⟨_, _, rfl, Or.inl ⟨rfl, by simp [errRtt]⟩⟩

/-- A successful DATA_DESTROY. -/
structure DataDestroyOk (s : State) (ti : Nat → TabInfo) (rdA a g pa : Nat) (rp : Ripas)
    (s' : State) (ret : Ret) : Prop where
  at_ : At s ti rdA a 0 g
  al : a % 4096 = 0
  par : a < (rdOf s rdA).parSize
  ent : tabOf s g (idx 0 a) = .assigned rp pa
  st : s' = { s with
    st := upd s.st pa .delegated
    mem := upd (upd s.mem g (.table (upd (tabOf s g) (idx 0 a)
      (.unassigned (if rp = .empty then .empty else .destroyed))))) pa (.page 0)
    rc := upd s.rc g (s.rc g - 1) }
  ret : ret = { x1 := pa
                x2 := skipNonLive (upd (tabOf s g) (idx 0 a)
                  (.unassigned (if rp = .empty then .empty else .destroyed))) ⟨g, 0, idx 0 a⟩ a
                tlbi := if rp = .ram then [⟨(rdOf s rdA).vmid, a, 4096⟩] else [] }

theorem dataDestroy_spec (h : InvG P s ti di rl) (rdA a : Nat) :
    ∃ s' ret, dataDestroy P s rdA a = some (s', ret) ∧
      ((s' = s ∧ ret.status ≠ 0) ∨ ∃ g pa rp, DataDestroyOk s ti rdA a g pa rp s' ret) := by
  unfold dataDestroy
  by_cases h1 : lk P s rdA .rd = true
  swap
  · rw [if_neg h1]; exact ⟨_, _, rfl, Or.inl ⟨rfl, by decide⟩⟩
  rw [if_pos h1]
  rw [lk_iff] at h1
  obtain ⟨_, hrd⟩ := h1
  rw [getRd_eq h hrd]
  dsimp only
  by_cases h2 : ((rdOf s rdA).inPar a && validateMapAddr (rdOf s rdA) a 0) = true
  swap
  · rw [if_neg h2]; exact ⟨_, _, rfl, Or.inl ⟨rfl, by decide⟩⟩
  rw [if_pos h2]
  rw [Bool.and_eq_true, inPar_iff, validateMapAddr_iff, sz_zero] at h2
  obtain ⟨hpar, hlt, hal, _⟩ := h2
  obtain ⟨g, dw, hw, hat, hleaf⟩ := walk_leaf h hrd hlt
  rw [hw]
  dsimp only
  rw [getTab_eq h hat.st]
  dsimp only
  by_cases h4 : dw = 0
  swap
  · rw [if_neg h4]; exact ⟨_, _, rfl, Or.inl ⟨rfl, by simp [errRtt]⟩⟩
  rw [if_pos h4]
  subst h4
  cases he : tabOf s g (idx 0 a) with
  | assigned rp pa =>
    dsimp only
    have hent := hat.ent h
    rw [he] at hent
    obtain ⟨_, _, _, _, h5⟩ := hent
    have h6 := (h5 0 (by simp)).1
    simp only [Nat.mul_zero, Nat.add_zero] at h6
    have h7 : 1 ≤ s.rc g := by
      rw [(h.tab g hat.st).rc]
      exact cnt_pos _ _ (idx 0 a) (idx_lt _ _) (by rw [he]; rfl)
    rw [if_pos ⟨h7, (lk_iff _ _ _ _).mpr ⟨h.trk pa (by rw [h6]; simp), h6⟩⟩]
    exact ⟨_, _, rfl, Or.inr ⟨g, pa, rp, ⟨hat, hal, hpar, he, rfl, rfl⟩⟩⟩
  | _ => exact ⟨_, _, rfl, Or.inl ⟨rfl, by simp [errRtt]⟩⟩

/-! ## INIT_RIPAS -/

/-- RIM events of `m` consecutive entries from `addr`. -/
def ripasEvs (d addr m : Nat) : List MeasEv :=
  (List.range m).map fun k => .ripas (addr + k * sz d) (addr + (k + 1) * sz d)

theorem ripasEvs_succ (d addr m : Nat) :
    ripasEvs d addr (m + 1) = .ripas addr (addr + sz d) :: ripasEvs d (addr + sz d) m := by
  unfold ripasEvs
  rw [List.range_succ_eq_map, List.map_cons, List.map_map]
  congr 1
  · simp
  · apply List.map_congr_left
    intro k _
    simp only [Function.comp_apply]
    rw [Nat.succ_eq_add_one]
    congr 1 <;> ring

/-- An entry INIT_RIPAS can turn to RAM. -/
def Entry.initable : Entry → Bool
  | .unassigned .empty => true
  | .unassigned .ram => true
  | _ => false

theorem initLoop_spec (d top : Nat) : ∀ n i addr (t : Nat → Entry) log,
    ∃ m ≤ n, (initLoop d top n i addr t log).2.1 = addr + m * sz d ∧
      (∀ j, (initLoop d top n i addr t log).1 j =
        if i ≤ j ∧ j < i + m then .unassigned .ram else t j) ∧
      (initLoop d top n i addr t log).2.2 = log ++ ripasEvs d addr m ∧
      (∀ j, i ≤ j → j < i + m → (t j).initable = true) ∧ (m ≠ 0 → addr + m * sz d ≤ top) ∧
      (m = n ∨ top < addr + m * sz d + sz d ∨ (t (i + m)).initable = false) := by
  intro n
  induction n with
  | zero =>
    intro i addr t log
    refine ⟨0, Nat.le_refl _, by simp [initLoop], ?_, by simp [initLoop, ripasEvs], by omega, by simp, by simp⟩
    intro j; rw [if_neg (by omega)]; rfl
  | succ n ih =>
    intro i addr t log
    unfold initLoop
    by_cases h1 : top < addr + sz d
    · rw [if_pos h1]
      refine ⟨0, Nat.zero_le _, by simp, ?_, by simp [ripasEvs], by omega, by simp, by simp [h1]⟩
      intro j; rw [if_neg (by omega)]
    rw [if_neg h1]
    have stop : (t i).initable = false → ∃ m ≤ n + 1, addr = addr + m * sz d ∧
        (∀ j, t j = if i ≤ j ∧ j < i + m then .unassigned .ram else t j) ∧
        log = log ++ ripasEvs d addr m ∧ (∀ j, i ≤ j → j < i + m → (t j).initable = true) ∧
        (m ≠ 0 → addr + m * sz d ≤ top) ∧
        (m = n + 1 ∨ top < addr + m * sz d + sz d ∨ (t (i + m)).initable = false) := by
      intro hi
      refine ⟨0, Nat.zero_le _, by simp, ?_, by simp [ripasEvs], by omega, by simp, by simp [hi]⟩
      intro j; rw [if_neg (by omega)]
    have go : ∀ t' : Nat → Entry, (∀ j, t' j = if j = i then .unassigned .ram else t j) →
        (t i).initable = true →
        ∃ m ≤ n + 1,
        (initLoop d top n (i + 1) (addr + sz d) t' (log ++ [.ripas addr (addr + sz d)])).2.1 = addr + m * sz d ∧
        (∀ j, (initLoop d top n (i + 1) (addr + sz d) t' (log ++ [.ripas addr (addr + sz d)])).1 j =
          if i ≤ j ∧ j < i + m then .unassigned .ram else t j) ∧
        (initLoop d top n (i + 1) (addr + sz d) t' (log ++ [.ripas addr (addr + sz d)])).2.2 =
          log ++ ripasEvs d addr m ∧ (∀ j, i ≤ j → j < i + m → (t j).initable = true) ∧
        (m ≠ 0 → addr + m * sz d ≤ top) ∧
        (m = n + 1 ∨ top < addr + m * sz d + sz d ∨ (t (i + m)).initable = false) := by
      intro t' ht' hi
      obtain ⟨m, hm, h2, h3, h4, h5, h6, h7⟩ := ih (i + 1) (addr + sz d) t' (log ++ [.ripas addr (addr + sz d)])
      have e : addr + sz d + m * sz d = addr + (m + 1) * sz d := by ring
      refine ⟨m + 1, by omega, by rw [h2, e], ?_, ?_, ?_, ?_, ?_⟩
      · intro j
        rw [h3, ht']
        by_cases hj : j = i
        · subst hj; simp
        · rw [if_neg hj]
          by_cases hj2 : i + 1 ≤ j ∧ j < i + 1 + m
          · rw [if_pos hj2, if_pos (by omega)]
          · rw [if_neg hj2, if_neg (by omega)]
      · rw [h4, ripasEvs_succ]; simp
      · intro j hj1 hj2
        by_cases hj : j = i
        · subst hj; exact hi
        · have := h5 j (by omega) (by omega)
          rw [ht', if_neg hj] at this
          exact this
      · intro _
        rw [← e]
        by_cases hm0 : m = 0
        · subst hm0; simp; omega
        · exact h6 hm0
      · rcases h7 with h7 | h7 | h7
        · exact Or.inl (by omega)
        · exact Or.inr (Or.inl (by rw [← e]; exact h7))
        · right; right
          rw [ht', if_neg (by omega)] at h7
          rw [show i + (m + 1) = i + 1 + m by omega]; exact h7
    match hti : t i with
    | .unassigned .empty =>
      exact go _ (fun j => rfl) (by rw [hti]; rfl)
    | .unassigned .ram =>
      refine go t (fun j => ?_) (by rw [hti]; rfl)
      split
      · rename_i hj; subst hj; exact hti
      · rfl
    | .unassigned .destroyed => exact stop (by rw [hti]; rfl)
    | .unassignedNs => exact stop (by rw [hti]; rfl)
    | .assigned _ _ => exact stop (by rw [hti]; rfl)
    | .assignedNs _ _ => exact stop (by rw [hti]; rfl)
    | .table _ => exact stop (by rw [hti]; rfl)

/-- A successful INIT_RIPAS: `m` entries of the table at depth `d`, from the entry of `base` on. -/
structure InitOk (s : State) (ti : Nat → TabInfo) (rdA base top d g m : Nat)
    (s' : State) (ret : Ret) : Prop where
  at_ : At s ti rdA base d g
  al : base % sz d = 0
  leaf : ∀ c, tabOf s g (idx d base) ≠ .table c
  par : top ≤ (rdOf s rdA).parSize
  topAl : top % 4096 = 0
  new : (rdOf s rdA).state = .new
  m1 : 1 ≤ m
  m2 : m ≤ perTab d - idx d base
  le : base + m * sz d ≤ top
  was : ∀ j, idx d base ≤ j → j < idx d base + m → (tabOf s g j).initable = true
  stop : m = perTab d - idx d base ∨ top < base + m * sz d + sz d ∨
    (tabOf s g (idx d base + m)).initable = false
  st : s' = { s with
    mem := upd (upd s.mem g (.table (fun j =>
        if idx d base ≤ j ∧ j < idx d base + m then .unassigned .ram else tabOf s g j))) rdA
      (.rd { rdOf s rdA with rim := (rdOf s rdA).rim ++ ripasEvs d base m }) }
  ret : ret = { x1 := base + m * sz d }

theorem upd_mem_self (s : State) {a : Nat} {v : Content} (h : s.mem a = v) : upd s.mem a v = s.mem := by
  rw [← h, upd_self]

theorem rttInitRipas_spec (h : InvG P s ti di rl) (rdA base top : Nat) :
    ∃ s' ret, rttInitRipas P s rdA base top = some (s', ret) ∧
      ((s' = s ∧ ret.status ≠ 0) ∨ ∃ d g m, InitOk s ti rdA base top d g m s' ret) := by
  unfold rttInitRipas
  by_cases h0 : top ≤ base
  · rw [if_pos h0]; exact ⟨_, _, rfl, Or.inl ⟨rfl, by decide⟩⟩
  rw [if_neg h0]
  by_cases h1 : lk P s rdA .rd = true
  swap
  · rw [if_neg h1]; exact ⟨_, _, rfl, Or.inl ⟨rfl, by decide⟩⟩
  rw [if_pos h1]
  rw [lk_iff] at h1
  obtain ⟨_, hrd⟩ := h1
  rw [getRd_eq h hrd]
  dsimp only
  by_cases h2 : (validateMapAddr (rdOf s rdA) base 0 && validateMapAddr (rdOf s rdA) top 0 &&
      (rdOf s rdA).inPar base && (rdOf s rdA).inPar (top - 4096)) = true
  swap
  · rw [if_neg h2]; exact ⟨_, _, rfl, Or.inl ⟨rfl, by decide⟩⟩
  rw [if_pos h2]
  simp only [Bool.and_eq_true, inPar_iff, validateMapAddr_iff, sz_zero] at h2
  obtain ⟨⟨⟨⟨hlt, hal, _⟩, htlt, htal, _⟩, hpar⟩, htpar⟩ := h2
  have htop : top ≤ (rdOf s rdA).parSize := by
    have hg := (h.rds rdA hrd).geo
    have : (rdOf s rdA).parSize % 4096 = 0 := by
      have := mod_sz_of_dvd (Nat.zero_le _) (Nat.mod_eq_zero_of_dvd hg.par_dvd)
      rw [sz_zero] at this; exact this
    omega
  by_cases hn : (rdOf s rdA).state ≠ .new
  · rw [if_pos hn]; exact ⟨_, _, rfl, Or.inl ⟨rfl, by simp [errRealm]⟩⟩
  rw [if_neg hn]
  obtain ⟨g, d, hw, hat, hleaf⟩ := walk_leaf h hrd hlt
  rw [hw]
  dsimp only
  rw [getTab_eq h hat.st]
  dsimp only
  by_cases h4 : base / sz d * sz d ≠ base
  · rw [if_pos h4]; exact ⟨_, _, rfl, Or.inl ⟨rfl, by simp [errRtt]⟩⟩
  rw [if_neg h4]
  have hal2 : base % sz d = 0 := by
    have : base / sz d * sz d = base := by simpa using h4
    rw [← this]; exact Nat.mul_mod_left _ _
  obtain ⟨m, hm, e1, e2, e3, e4, e5, e6⟩ :=
    initLoop_spec d top (perTab d - idx d base) (idx d base) base (tabOf s g) (rdOf s rdA).rim
  have e2' : (initLoop d top (perTab d - idx d base) (idx d base) base (tabOf s g) (rdOf s rdA).rim).1 =
      fun j => if idx d base ≤ j ∧ j < idx d base + m then .unassigned .ram else tabOf s g j := funext e2
  rw [e1, e2', e3]
  by_cases hm0 : m = 0
  · subst hm0
    rw [if_neg (by simp)]
    refine ⟨_, _, rfl, Or.inl ⟨?_, by simp [errRtt]⟩⟩
    have : (fun j => if idx d base ≤ j ∧ j < idx d base + 0 then Entry.unassigned .ram else tabOf s g j) =
        tabOf s g := by funext j; rw [if_neg (by omega)]
    rw [this, upd_mem_self s (h.tab g hat.st).mem]
    have : ripasEvs d base 0 = [] := rfl
    rw [this, List.append_nil]
    rw [upd_mem_self s (h.rds rdA hrd).mem]
  · have hp := sz_pos d
    have : 0 < m * sz d := Nat.mul_pos (by omega) hp
    rw [if_pos (by omega)]
    exact ⟨_, _, rfl, Or.inr ⟨d, g, m, ⟨hat, hal2, hleaf, htop, htal, by simpa using hn, by omega, hm,
      e5 hm0, e4, e6, rfl, rfl⟩⟩⟩

/-! ## SET_RIPAS -/

/-- The entry a RIPAS change leaves. -/
def Entry.setRipas (e : Entry) (v : Ripas) (chg : Bool) : Entry := ((updateRipas e v chg).map (·.1)).getD e

theorem setLoop_spec (vmid d top : Nat) (v : Ripas) (chg : Bool) : ∀ n i addr (t : Nat → Entry) l,
    ∃ m ≤ n, (setLoop vmid d top v chg n i addr t l).2.1 = addr + m * sz d ∧
      (∀ j, (setLoop vmid d top v chg n i addr t l).1 j =
        if i ≤ j ∧ j < i + m then (t j).setRipas v chg else t j) ∧
      (∀ x, x ∈ (setLoop vmid d top v chg n i addr t l).2.2 ↔ x ∈ l ∨
        ∃ j < m, (∃ e, updateRipas (t (i + j)) v chg = some (e, true)) ∧ x = ⟨vmid, addr + j * sz d, 4096⟩) ∧
      (∀ j, i ≤ j → j < i + m → (updateRipas (t j) v chg).isSome = true) ∧
      (m ≠ 0 → addr + m * sz d ≤ top) ∧
      (m = n ∨ top < addr + m * sz d + sz d ∨ updateRipas (t (i + m)) v chg = none) := by
  intro n
  induction n with
  | zero =>
    intro i addr t l
    refine ⟨0, Nat.le_refl _, by simp [setLoop], ?_, by simp [setLoop], by omega, by simp, by simp⟩
    intro j; rw [if_neg (by omega)]; rfl
  | succ n ih =>
    intro i addr t l
    unfold setLoop
    by_cases h1 : top < addr + sz d
    · rw [if_pos h1]
      refine ⟨0, Nat.zero_le _, by simp, ?_, by simp, by omega, by simp, by simp [h1]⟩
      intro j; rw [if_neg (by omega)]
    rw [if_neg h1]
    cases hu : updateRipas (t i) v chg with
    | none =>
      refine ⟨0, Nat.zero_le _, by simp, ?_, by simp, by omega, by simp, by simp [hu]⟩
      intro j; rw [if_neg (by omega)]
    | some x =>
      obtain ⟨e, tl⟩ := x
      dsimp only
      obtain ⟨m, hm, h2, h3, h4, h5, h6, h7⟩ := ih (i + 1) (addr + sz d) (upd t i e)
        (if tl then l ++ [⟨vmid, addr, 4096⟩] else l)
      have e' : addr + sz d + m * sz d = addr + (m + 1) * sz d := by ring
      refine ⟨m + 1, by omega, by rw [h2, e'], ?_, ?_, ?_, ?_, ?_⟩
      · intro j
        rw [h3, upd_apply]
        by_cases hj : j = i
        · subst hj; simp [Entry.setRipas, hu]
        · rw [if_neg hj]
          by_cases hj2 : i + 1 ≤ j ∧ j < i + 1 + m
          · rw [if_pos hj2, if_pos (by omega)]
          · rw [if_neg hj2, if_neg (by omega)]
      · intro x
        rw [h4]
        have hmem : x ∈ (if tl then l ++ [(⟨vmid, addr, 4096⟩ : Tlbi)] else l) ↔
            x ∈ l ∨ (tl = true ∧ x = ⟨vmid, addr, 4096⟩) := by cases tl <;> simp
        rw [hmem]
        constructor
        · rintro ((hx | ⟨htl, hx⟩) | ⟨j, hj, ⟨e0, he0⟩, hx⟩)
          · exact Or.inl hx
          · exact Or.inr ⟨0, by omega, ⟨e, by rw [Nat.add_zero, hu, htl]⟩, by rw [hx]; simp⟩
          · refine Or.inr ⟨j + 1, by omega, ⟨e0, ?_⟩, ?_⟩
            · rw [upd_ne _ _ _ (by omega)] at he0
              rw [show i + (j + 1) = i + 1 + j by omega]; exact he0
            · rw [hx]; congr 1; ring
        · rintro (hx | ⟨j, hj, ⟨e0, he0⟩, hx⟩)
          · exact Or.inl (Or.inl hx)
          · cases j with
            | zero =>
              rw [Nat.add_zero, hu] at he0
              simp only [Option.some.injEq, Prod.mk.injEq] at he0
              exact Or.inl (Or.inr ⟨he0.2, by rw [hx]; simp⟩)
            | succ j =>
              refine Or.inr ⟨j, by omega, ⟨e0, ?_⟩, ?_⟩
              · rw [upd_ne _ _ _ (by omega)]
                rw [show i + 1 + j = i + (j + 1) by omega]; exact he0
              · rw [hx]; congr 1; ring
      · intro j hj1 hj2
        by_cases hj : j = i
        · subst hj; rw [hu]; rfl
        · have := h5 j (by omega) (by omega)
          rw [upd_ne _ _ _ hj] at this
          exact this
      · intro _
        rw [← e']
        by_cases hm0 : m = 0
        · subst hm0; simp; omega
        · exact h6 hm0
      · rcases h7 with h7 | h7 | h7
        · exact Or.inl (by omega)
        · exact Or.inr (Or.inl (by rw [← e']; exact h7))
        · right; right
          rw [upd_ne _ _ _ (by omega)] at h7
          rw [show i + (m + 1) = i + 1 + m by omega]; exact h7

/-- A successful SET_RIPAS. -/
structure SetOk (s : State) (ti : Nat → TabInfo) (rdA recA base top d g m : Nat)
    (s' : State) (ret : Ret) : Prop where
  at_ : At s ti rdA base d g
  rst : s.st recA = .recd
  idle : s.rc recA = 0
  own : (recOf s recA).rd = rdA
  addr : base = (recOf s recA).sr.addr
  al : base % sz d = 0
  leaf : ∀ c, tabOf s g (idx d base) ≠ .table c
  topLe : top ≤ (recOf s recA).sr.top
  m1 : 1 ≤ m
  m2 : m ≤ 512 - idx d base
  le : base + m * sz d ≤ top
  can : ∀ j, idx d base ≤ j → j < idx d base + m →
    (updateRipas (tabOf s g j) (recOf s recA).sr.ripas (recOf s recA).sr.chg).isSome = true
  stop : m = 512 - idx d base ∨ top < base + m * sz d + sz d ∨
    updateRipas (tabOf s g (idx d base + m)) (recOf s recA).sr.ripas (recOf s recA).sr.chg = none
  st : s' = { s with
    mem := upd (upd s.mem g (.table (fun j =>
        if idx d base ≤ j ∧ j < idx d base + m
        then (tabOf s g j).setRipas (recOf s recA).sr.ripas (recOf s recA).sr.chg else tabOf s g j))) recA
      (.recd { recOf s recA with sr := { (recOf s recA).sr with addr := base + m * sz d } }) }
  x1 : ret.x1 = base + m * sz d
  status : ret.status = 0
  tlbi : ∀ x, x ∈ ret.tlbi ↔ ∃ j < m,
    (∃ e, updateRipas (tabOf s g (idx d base + j)) (recOf s recA).sr.ripas (recOf s recA).sr.chg = some (e, true)) ∧
    x = ⟨(rdOf s rdA).vmid, base + j * sz d, 4096⟩

theorem rttSetRipas_spec (h : InvG P s ti di rl) (rdA recA base top : Nat) :
    ∃ s' ret, rttSetRipas P s rdA recA base top = some (s', ret) ∧
      ((s' = s ∧ ret.status ≠ 0) ∨ ∃ d g m, SetOk s ti rdA recA base top d g m s' ret) := by
  unfold rttSetRipas
  by_cases h0 : top ≤ base
  · rw [if_pos h0]; exact ⟨_, _, rfl, Or.inl ⟨rfl, by decide⟩⟩
  rw [if_neg h0]
  by_cases h1 : (lk P s rdA .rd && lk P s recA .recd) = true
  swap
  · rw [if_neg h1]; exact ⟨_, _, rfl, Or.inl ⟨rfl, by decide⟩⟩
  rw [if_pos h1]
  simp only [Bool.and_eq_true, lk_iff] at h1
  obtain ⟨⟨_, hrd⟩, _, hrec⟩ := h1
  by_cases hi : s.rc recA ≠ 0
  · rw [if_pos hi]; exact ⟨_, _, rfl, Or.inl ⟨rfl, by decide⟩⟩
  rw [if_neg hi, getRec_eq h hrec]
  dsimp only
  by_cases ho : (recOf s recA).rd ≠ rdA
  · rw [if_pos ho]; exact ⟨_, _, rfl, Or.inl ⟨rfl, by decide⟩⟩
  rw [if_neg ho]
  by_cases hb : base ≠ (recOf s recA).sr.addr ∨ (recOf s recA).sr.top < top
  · rw [if_pos hb]; exact ⟨_, _, rfl, Or.inl ⟨rfl, by decide⟩⟩
  rw [if_neg hb, getRd_eq h hrd]
  dsimp only
  have ho' : (recOf s recA).rd = rdA := by simpa using ho
  have hb' : base = (recOf s recA).sr.addr ∧ top ≤ (recOf s recA).sr.top := by
    constructor
    · by_contra hc; exact hb (Or.inl hc)
    · by_contra hc; exact hb (Or.inr (by omega))
  have hsr := (h.recs recA hrec).sr
  rw [ho'] at hsr
  have hg := (h.rds rdA hrd).geo
  have hpar := hsr.par
  have hlt : base < (rdOf s rdA).ipaSize := by have := hg.par_le; omega
  have h52 := hg.ipa_lt
  have hv : validateMapAddr (rdOf s rdA) base 0 = true := by
    rw [validateMapAddr_iff, sz_zero]
    refine ⟨hlt, by rw [hb'.1]; exact hsr.al.1, ?_⟩
    refine lt_of_lt_of_le hlt ?_
    have := hg.bits
    unfold Rd.ipaSize
    split
    · rename_i hl; rw [if_pos hl] at this; exact Nat.pow_le_pow_right (by omega) this
    · rename_i hl; rw [if_neg hl] at this; exact Nat.pow_le_pow_right (by omega) this
  rw [if_pos hv]
  obtain ⟨g, d, hw, hat, hleaf⟩ := walk_leaf h hrd hlt
  rw [hw]
  dsimp only
  by_cases h3 : validateMapAddr (rdOf s rdA) base d = true
  swap
  · rw [if_neg h3]; exact ⟨_, _, rfl, Or.inl ⟨rfl, by simp [errRtt]⟩⟩
  rw [if_pos h3, getTab_eq h hat.st]
  dsimp only
  obtain ⟨_, hal, _⟩ := (validateMapAddr_iff _ _ _).mp h3
  rw [if_neg (by simp [div_mul_of_mod hal])]
  obtain ⟨m, hm, e1, e2, e3, e4, e5, e6⟩ :=
    setLoop_spec (rdOf s rdA).vmid d top (recOf s recA).sr.ripas (recOf s recA).sr.chg
      (512 - idx d base) (idx d base) base (tabOf s g) []
  have e2' := funext e2
  rw [e1, e2']
  by_cases hm0 : m = 0
  · subst hm0
    rw [if_neg (by simp)]
    refine ⟨_, _, rfl, Or.inl ⟨?_, by simp [errRtt]⟩⟩
    have : (fun j => if idx d base ≤ j ∧ j < idx d base + 0
        then (tabOf s g j).setRipas (recOf s recA).sr.ripas (recOf s recA).sr.chg else tabOf s g j) =
        tabOf s g := by funext j; rw [if_neg (by omega)]
    rw [this, upd_mem_self s (h.tab g hat.st).mem]
  · have hp := sz_pos d
    have : 0 < m * sz d := Nat.mul_pos (by omega) hp
    rw [if_pos (by omega)]
    refine ⟨_, _, rfl, Or.inr ⟨d, g, m, ⟨hat, hrec, by simpa using hi, ho', hb'.1, hal, hleaf, hb'.2,
      by omega, hm, e5 hm0, e4, e6, rfl, rfl, rfl, ?_⟩⟩⟩
    intro x
    dsimp only
    rw [e3]
    simp

end

end Verif.Rmm
